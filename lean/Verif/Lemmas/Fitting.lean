import Verif.Lemmas.LeastSquares
import Verif.Props.OneBasis
import Verif.Props.Parameterize

/-!
# Lemmas about the fitting functions
-/

set_option linter.unusedSectionVars false

namespace PySpline

open Spec Finset

/-! ## Runs that return -/

theorem forN_ok {σ : Type} {a b : ℕ} {s t : σ} {f : ℕ → σ → Py σ} (Inv : ℕ → σ → Prop)
    (h : forN a b s f = .ok t) (hab : a ≤ b) (h0 : Inv a s)
    (hstep : ∀ i s s', a ≤ i → i < b → Inv i s → f i s = .ok s' → Inv (i + 1) s') : Inv b t := by
  induction hn : b - a generalizing a s with
  | zero =>
    rw [forN_empty (by omega)] at h
    cases h
    have : a = b := by omega
    exact this ▸ h0
  | succ n ih =>
    rw [forN_succ_left (by omega)] at h
    obtain ⟨s', hs', h⟩ := bind_eq_ok h
    exact ih h (by omega) (hstep a s s' le_rfl (by omega) h0 hs')
      (fun i s s' h1 h2 => hstep i s s' (by omega) h2) (by omega)

theorem foldlM_ok {α σ : Type} {g : σ → α → Py σ} (Inv : σ → Prop) (l : List α) :
    ∀ {s t : σ}, l.foldlM g s = .ok t → Inv s →
      (∀ x s s', x ∈ l → Inv s → g s x = .ok s' → Inv s') → Inv t := by
  induction l with
  | nil => intro s t h h0 _; rw [List.foldlM_nil] at h; cases h; exact h0
  | cons x xs ih =>
    intro s t h h0 hs
    rw [List.foldlM_cons] at h
    obtain ⟨s', hs', h⟩ := bind_eq_ok h
    exact ih h (hs x s s' List.mem_cons_self h0 hs') fun y a b hy => hs y a b (List.mem_cons_of_mem _ hy)

theorem forZ_ok {σ : Type} {a b : ℤ} {s t : σ} {f : ℤ → σ → Py σ} (Inv : σ → Prop)
    (h : forZ a b s f = .ok t) (h0 : Inv s)
    (hstep : ∀ i s s', Inv s → f i s = .ok s' → Inv s') : Inv t :=
  foldlM_ok Inv _ h h0 fun x s s' _ => hstep x s s'

theorem forL_ok {α σ : Type} {l : List α} {s t : σ} {f : α → σ → Py σ} (Inv : σ → Prop)
    (h : forL l s f = .ok t) (h0 : Inv s)
    (hstep : ∀ x s s', x ∈ l → Inv s → f x s = .ok s' → Inv s') : Inv t :=
  foldlM_ok Inv _ h h0 hstep

theorem pyIdx_ok {n k : ℕ} {i : ℤ} (h : pyIdx n i = .ok k) : k < n := by
  unfold pyIdx at h
  split at h
  · cases h; omega
  split at h
  · cases h; omega
  · cases h

theorem pyIdx_natCast_ok {n i k : ℕ} (h : pyIdx n (i : ℤ) = .ok k) : k = i ∧ i < n := by
  unfold pyIdx at h
  split at h
  · cases h; omega
  split at h
  · omega
  · cases h

theorem pySet_length {α : Type} {l l' : List α} {i : ℤ} {v : α} (h : pySet l i v = .ok l') :
    l'.length = l.length := by
  unfold pySet at h
  obtain ⟨k, -, h⟩ := bind_eq_ok h
  cases h; simp

theorem pySet_ok_nat {α : Type} {l l' : List α} {i : ℕ} {v : α} (h : pySet l (i : ℤ) v = .ok l') :
    i < l.length ∧ l' = l.set i v := by
  unfold pySet at h
  obtain ⟨k, hk, h'⟩ := bind_eq_ok h
  obtain ⟨rfl, hlt⟩ := pyIdx_natCast_ok hk
  cases h'; exact ⟨hlt, rfl⟩

theorem pyGet_ok_nat {α : Type} {l : List α} {i : ℕ} {v : α} (d : α) (h : pyGet l (i : ℤ) = .ok v) :
    i < l.length ∧ l.getD i d = v := by
  unfold pyGet at h
  obtain ⟨k, hk, h'⟩ := bind_eq_ok h
  obtain ⟨rfl, hlt⟩ := pyIdx_natCast_ok hk
  refine ⟨hlt, ?_⟩
  rw [List.getElem?_eq_getElem hlt] at h'
  cases h'
  simp [List.getD_eq_getElem?_getD, hlt]

theorem mapPy_length {α β : Type} {f : α → Py β} {l : List α} {l' : List β}
    (h : mapPy f l = .ok l') : l'.length = l.length := by
  induction l generalizing l' with
  | nil => cases h; rfl
  | cons x xs ih =>
    unfold mapPy at h
    obtain ⟨y, -, h⟩ := bind_eq_ok h
    obtain ⟨ys, hys, h⟩ := bind_eq_ok h
    cases h
    simp [ih hys]

theorem mapPy_getD {α β : Type} {f : α → Py β} {l : List α} {l' : List β}
    (h : mapPy f l = .ok l') (d : α) (d' : β) :
    ∀ i < l.length, f (l.getD i d) = .ok (l'.getD i d') := by
  induction l generalizing l' with
  | nil => intro i hi; simp at hi
  | cons x xs ih =>
    unfold mapPy at h
    obtain ⟨y, hy, h⟩ := bind_eq_ok h
    obtain ⟨ys, hys, h⟩ := bind_eq_ok h
    cases h
    intro i hi
    cases i with
    | zero => simpa using hy
    | succ i => simpa using ih hys i (by simpa using hi)

section
variable {K : Type} [Field K] [LinearOrder K]

theorem column_length {m : List (List K)} {c : ℤ} {v : List K} (h : column m c = .ok v) :
    v.length = m.length := mapPy_length h

theorem column_getD {m : List (List K)} {c : ℕ} {v : List K} (h : column m (c : ℤ) = .ok v) {i : ℕ}
    (hi : i < m.length) : v.getD i 0 = at2 m i c 0 := by
  have := mapPy_getD h [] 0 i hi
  exact (pyGet_ok_nat 0 this).2.symm

/-- Whenever `linear_fit_fixed` returns, for whatever least-squares solver. -/
theorem linearFitFixed_ok {ls : ℕ → List (List K) → List K → List K} {R : List (List K)}
    {Q P x : List K} {fixed : List Bool} (h : linearFitFixed ls R Q P fixed = .ok x) :
    x.length = P.length ∧ ∀ i < P.length, fixed.getD i false = true → x.getD i 0 = P.getD i 0 := by
  unfold linearFitFixed at h
  obtain ⟨nf, -, h⟩ := bind_eq_ok h
  split at h
  · cases h; exact ⟨rfl, fun _ _ _ => rfl⟩
  obtain ⟨⟨_, _, Qf, _, _⟩, -, h⟩ := bind_eq_ok h
  obtain ⟨b, -, h⟩ := bind_eq_ok h
  dsimp only at h
  obtain ⟨⟨full, _⟩, hl, h⟩ := bind_eq_ok h
  cases h
  refine forN_ok (fun i (st : List K × ℕ) => st.1.length = P.length ∧
    ∀ j < i, fixed.getD j false = true → st.1.getD j 0 = P.getD j 0) hl (Nat.zero_le _)
    ⟨by simp [zeros], fun j hj => absurd hj (by omega)⟩ ?_
  rintro i ⟨s, j⟩ ⟨s', j'⟩ - hi ⟨h1, h2⟩ hs
  dsimp only at h1 h2 hs ⊢
  obtain ⟨f, hf, hs⟩ := bind_eq_ok hs
  have hf' := (pyGet_ok_nat false hf).2
  split at hs
  · obtain ⟨p, hp, hs⟩ := bind_eq_ok hs
    obtain ⟨w, hw, hs⟩ := bind_eq_ok hs
    cases hs
    obtain ⟨hlt, rfl⟩ := pySet_ok_nat hw
    refine ⟨by simp [h1], fun k hk hfk => ?_⟩
    rw [getD_set _ _ _ _ _ hlt]
    by_cases e : k = i
    · subst e; rw [if_pos rfl]; exact (pyGet_ok_nat 0 hp).2.symm
    · rw [if_neg e]; exact h2 k (by omega) hfk
  · rename_i hff
    obtain ⟨p, hp, hs⟩ := bind_eq_ok hs
    obtain ⟨w, hw, hs⟩ := bind_eq_ok hs
    cases hs
    obtain ⟨hlt, rfl⟩ := pySet_ok_nat hw
    refine ⟨by simp [h1], fun k hk hfk => ?_⟩
    rw [getD_set _ _ _ _ _ hlt]
    by_cases e : k = i
    · subst e; rw [hf'] at hfk; exact absurd hfk hff
    · rw [if_neg e]; exact h2 k (by omega) hfk

theorem columnStack3_getD {x y z : List K} {i : ℕ} (hi : i < x.length) :
    ((List.range x.length).map fun i => [x.getD i 0, y.getD i 0, z.getD i 0]).getD i []
      = [x.getD i 0, y.getD i 0, z.getD i 0] := by
  simp [List.getD_eq_getElem?_getD, hi]

theorem row_eq_three {row : List K} (h : row.length = 3) :
    row = [row.getD 0 0, row.getD 1 0, row.getD 2 0] := by
  match row, h with
  | [a, b, c], _ => rfl

/-- Whenever the fit of the three columns returns. -/
theorem fitColumns_ok {ls : ℕ → List (List K) → List K → List K} {M data P new : List (List K)}
    {fixed : List Bool} (h : fitColumns ls M data P fixed = .ok new) :
    Shape new P.length 3 ∧ ∀ i < P.length, fixed.getD i false = true →
      ∀ k < 3, at2 new i k 0 = at2 P i k 0 := by
  unfold fitColumns at h
  obtain ⟨qx, hqx, h⟩ := bind_eq_ok h
  obtain ⟨px, hpx, h⟩ := bind_eq_ok h
  obtain ⟨x, hx, h⟩ := bind_eq_ok h
  obtain ⟨qy, hqy, h⟩ := bind_eq_ok h
  obtain ⟨py, hpy, h⟩ := bind_eq_ok h
  obtain ⟨y, hy, h⟩ := bind_eq_ok h
  obtain ⟨qz, hqz, h⟩ := bind_eq_ok h
  obtain ⟨pz, hpz, h⟩ := bind_eq_ok h
  obtain ⟨z, hz, h⟩ := bind_eq_ok h
  obtain ⟨lx, fx⟩ := linearFitFixed_ok hx
  obtain ⟨ly, fy⟩ := linearFitFixed_ok hy
  obtain ⟨lz, fz⟩ := linearFitFixed_ok hz
  rw [column_length hpx] at lx fx
  rw [column_length hpy] at ly fy
  rw [column_length hpz] at lz fz
  unfold columnStack3 at h
  split at h
  · cases h
    refine ⟨⟨by simp [lx], fun row hrow => ?_⟩, fun i hi hf k hk => ?_⟩
    · obtain ⟨i, -, rfl⟩ := List.mem_map.1 hrow; rfl
    · unfold at2
      rw [columnStack3_getD (by omega)]
      have a := fx i hi hf
      have b := fy i hi hf
      have c := fz i hi hf
      rw [column_getD (c := 0) hpx hi] at a
      rw [column_getD (c := 1) hpy hi] at b
      rw [column_getD (c := 2) hpz hi] at c
      match k, hk with
      | 0, _ => exact a
      | 1, _ => exact b
      | 2, _ => exact c
  · cases h

theorem curveMask_eq {n : ℕ} (hn : 0 < n) :
    ∃ m, curveMask n = .ok m ∧ m.length = n ∧ ∀ i < n, m.getD i false = decide (i = 0 ∨ i + 1 = n) := by
  unfold curveMask
  dsimp only
  rw [pySet_nat _ 0 0 _ rfl (by simpa using hn), ok_bind]
  have hidx : pyIdx n (-1) = .ok (n - 1) := by
    unfold pyIdx
    rw [if_neg (by omega), if_pos (by omega)]
    congr 1; omega
  unfold pySet
  simp only [List.length_set, List.length_replicate, hidx, ok_bind]
  refine ⟨_, rfl, by simp, fun i hi => ?_⟩
  rw [getD_set _ _ _ _ _ (by simp; omega), getD_set _ _ _ _ _ (by simp; omega)]
  by_cases h1 : i = n - 1
  · rw [if_pos h1]; exact (decide_eq_true (by omega)).symm
  · rw [if_neg h1]
    by_cases h2 : i = 0
    · rw [if_pos h2]; exact (decide_eq_true (by omega)).symm
    · rw [if_neg h2, decide_eq_false (by omega)]
      simp [List.getD_eq_getElem?_getD, hi]

theorem curveMask_ok {n : ℕ} {m : List Bool} (h : curveMask n = .ok m) : 0 < n := by
  unfold curveMask at h
  obtain ⟨a, ha, -⟩ := bind_eq_ok h
  have := (pySet_ok_nat (i := 0) ha).1
  simpa using this

theorem getD_eq_of_at2 {A B : List (List K)} {n : ℕ} (hA : Shape A n 3) (hB : Shape B n 3) {i : ℕ}
    (hi : i < n) (h : ∀ k < 3, at2 A i k 0 = at2 B i k 0) : A.getD i [] = B.getD i [] := by
  rw [row_eq_three (hA.row hi), row_eq_three (hB.row hi)]
  have h0 := h 0 (by omega)
  have h1 := h 1 (by omega)
  have h2 := h 2 (by omega)
  unfold at2 at h0 h1 h2
  rw [h0, h1, h2]

/-- Whenever `single_fit_curve` returns. -/
theorem singleFitCurve_ok {ls : ℕ → List (List K) → List K → List K} {c c' : Curve K}
    {data : List (List K)} (h : singleFitCurve ls c data = .ok c') :
    c'.degree = c.degree ∧ c'.kv = c.kv ∧ 0 < c.ctrlpts.length ∧ Shape c'.ctrlpts c.ctrlpts.length 3 ∧
      ∀ k < 3, at2 c'.ctrlpts 0 k 0 = at2 c.ctrlpts 0 k 0 ∧
        at2 c'.ctrlpts (c.ctrlpts.length - 1) k 0 = at2 c.ctrlpts (c.ctrlpts.length - 1) k 0 := by
  unfold singleFitCurve at h
  obtain ⟨M, -, h⟩ := bind_eq_ok h
  obtain ⟨_, -, h⟩ := bind_eq_ok h
  obtain ⟨f, hf, h⟩ := bind_eq_ok h
  obtain ⟨new, hnew, h⟩ := bind_eq_ok h
  cases h
  have hn := curveMask_ok hf
  obtain ⟨m, hm, -, hmask⟩ := curveMask_eq hn
  rw [hm] at hf; cases hf
  obtain ⟨h1, h2⟩ := fitColumns_ok hnew
  refine ⟨rfl, rfl, hn, h1, fun k hk => ⟨h2 0 hn ?_ k hk, h2 _ (by omega) ?_ k hk⟩⟩
  · rw [hmask 0 hn]; simp
  · rw [hmask _ (by omega)]; simp; omega

end

section
variable {K : Type} [Field K] [LinearOrder K] [IsStrictOrderedRing K]

/-! ## The matrix -/

theorem pyGet_neg_one {α : Type} {l : List α} {n : ℕ} (h : l.length = n + 1) (d : α) :
    pyGet l (-1) = .ok (l.getD n d) := by
  unfold pyGet
  have : pyIdx l.length (-1) = .ok n := by
    unfold pyIdx
    rw [if_neg (by omega), if_pos (by omega)]
    congr 1; omega
  rw [this, ok_bind]
  simp [List.getD_eq_getElem?_getD, h]

theorem column_last {m : List (List K)} {r c : ℕ} (h : Shape m r (c + 1)) :
    column m (-1) = .ok (m.map fun row => row.getD c 0) := by
  unfold column
  exact mapPy_eq_ok _ _ _ fun row hrow => pyGet_neg_one (h.2 row hrow) 0

theorem curveMatrix_spec {c : Curve K} {data : List (List K)} {m n : ℕ} (B : ℕ → ℕ → K)
    (hd : Shape data m 4) (hn : c.ctrlpts.length = n)
    (hB : ∀ r < m, ∀ i < n, oneBasisFunction c.degree c.kv i (at2 data r 3 0) = .ok (B r i)) :
    Returns (curveMatrix c data) fun M => Shape M m n ∧ ∀ r < m, ∀ i < n, at2 M r i 0 = B r i := by
  unfold curveMatrix
  rw [column_last hd, ok_bind, hn, hd.1]
  dsimp only
  have hl : (data.map fun row => row.getD 3 0).length = m := by simp [hd.1]
  rw [hl]
  refine Returns.bind (Returns.forN (fun r (st : List (List K) × ℕ) => Shape st.1 m n ∧ st.2 = r ∧
    ∀ x < r, ∀ i < n, at2 st.1 x i 0 = B x i) (Nat.zero_le _) ?_ ?_) ?_
  · exact ⟨shape_replicate _ _ _, rfl, fun x hx => absurd hx (by omega)⟩
  · rintro r ⟨M, row⟩ - hr ⟨h1, h2, h3⟩
    dsimp only at h1 h2 h3 ⊢
    subst h2
    refine Returns.bind (Returns.forN (fun i (st : List (List K) × ℕ) => Shape st.1 m n ∧ st.2 = i ∧
      (∀ x < row, ∀ i < n, at2 st.1 x i 0 = B x i) ∧ ∀ j < i, at2 st.1 row j 0 = B row j)
      (Nat.zero_le _) ?_ ?_) ?_
    · exact ⟨h1, rfl, h3, fun j hj => absurd hj (by omega)⟩
    · rintro i ⟨M', col⟩ - hi ⟨g1, g2, g3, g4⟩
      dsimp only at g1 g2 g3 g4 ⊢
      subst g2
      rw [pyGet_nat _ _ row 0 rfl (by omega), ok_bind, getD_map_row data row 3, hB row hr col hi,
        ok_bind]
      obtain ⟨M'', e, hs, hat⟩ := set2_nat g1 (row : ℤ) (col : ℤ) row col (B row col) 0 rfl rfl hr hi
      rw [e, ok_bind]
      refine Returns.ok ⟨hs, rfl, fun x hx i hi => ?_, fun j hj => ?_⟩
      · rw [hat, if_neg (by omega)]; exact g3 x hx i hi
      · rw [hat]
        by_cases e : j = col
        · subst e; rw [if_pos ⟨rfl, rfl⟩]
        · rw [if_neg (by omega)]; exact g4 j (by omega)
    · rintro ⟨M', col⟩ ⟨g1, -, g3, g4⟩
      refine Returns.ok ⟨g1, rfl, fun x hx i hi => ?_⟩
      rcases Nat.lt_succ_iff_lt_or_eq.1 hx with hx | rfl
      · exact g3 x hx i hi
      · exact g4 i hi
  · rintro ⟨M, row⟩ ⟨h1, -, h3⟩
    exact Returns.ok ⟨h1, h3⟩

theorem sum_eq_range (l : List K) : l.sum = ∑ i ∈ range l.length, l.getD i 0 := by
  induction l with
  | nil => rfl
  | cons x xs ih =>
    rw [List.sum_cons, List.length_cons, sum_range_succ', ih, add_comm]
    rfl

theorem checkUnity_ok {M : List (List K)} {m n : ℕ} (hM : Shape M m n)
    (h : ∀ r < m, ∑ i ∈ range n, at2 M r i 0 = 1) : checkUnity M m = .ok () := by
  have hs : (M.map List.sum).sum = (m : K) := by
    rw [sum_eq_range, List.length_map, hM.1]
    rw [sum_congr rfl (g := fun _ => (1 : K))]
    · simp
    · intro r hr
      have hr' := mem_range.1 hr
      have e : (M.map List.sum).getD r 0 = (M.getD r []).sum := by
        simp [List.getD_eq_getElem?_getD, hM.1, hr']
      rw [e, sum_eq_range, hM.row hr']
      exact h r hr'
  unfold checkUnity
  dsimp only
  rw [hs]
  have : iscloseD (m : K) (m : K) = true := by
    unfold iscloseD isclose atolDefault rtolDefault
    rw [sub_self, abs_zero]
    exact decide_eq_true (by positivity)
  rw [this]
  simp

/-! ## The fit of the columns -/

/-- The columns of the result are the results of the three fits. -/
theorem fitColumns_columns {ls : ℕ → List (List K) → List K → List K} {M data P new : List (List K)}
    {fixed : List Bool} {m n w : ℕ} (hd : Shape data m w) (hw : 3 ≤ w) (hP : Shape P n 3)
    (h : fitColumns ls M data P fixed = .ok new) : ∀ k < 3, ∃ x,
      linearFitFixed ls M (data.map fun row => row.getD k 0) (P.map fun row => row.getD k 0) fixed = .ok x ∧
      ∀ i < n, coord new k i = x.getD i 0 := by
  unfold fitColumns at h
  rw [column_nat hd 0 0 rfl (by omega), ok_bind, column_nat hP 0 0 rfl (by omega), ok_bind] at h
  obtain ⟨x, hx, h⟩ := bind_eq_ok h
  rw [column_nat hd 1 1 rfl (by omega), ok_bind, column_nat hP 1 1 rfl (by omega), ok_bind] at h
  obtain ⟨y, hy, h⟩ := bind_eq_ok h
  rw [column_nat hd 2 2 rfl (by omega), ok_bind, column_nat hP 2 2 rfl (by omega), ok_bind] at h
  obtain ⟨z, hz, h⟩ := bind_eq_ok h
  have lx := (linearFitFixed_ok hx).1
  rw [List.length_map, hP.1] at lx
  unfold columnStack3 at h
  split at h
  · cases h
    have hrow : ∀ i < n, ((List.range x.length).map fun i => [x.getD i 0, y.getD i 0, z.getD i 0]).getD i []
        = [x.getD i 0, y.getD i 0, z.getD i 0] := fun i hi => columnStack3_getD (by omega)
    intro k hk
    match k, hk with
    | 0, _ => exact ⟨x, hx, fun i hi => by unfold coord; rw [hrow i hi]; rfl⟩
    | 1, _ => exact ⟨y, hy, fun i hi => by unfold coord; rw [hrow i hi]; rfl⟩
    | 2, _ => exact ⟨z, hz, fun i hi => by unfold coord; rw [hrow i hi]; rfl⟩
  · cases h

/-- `fitColumns` with any solver that returns the right number of entries. -/
theorem fitColumns_returns {ls : ℕ → List (List K) → List K → List K} {M data P : List (List K)} {fixed : List Bool}
    {m n w : ℕ} {C : ℕ → List K → Prop} (hd : Shape data m w) (hw : 3 ≤ w) (hP : Shape P n 3)
    (key : ∀ k < 3, Returns (linearFitFixed ls M (data.map fun row => row.getD k 0) (P.map fun row => row.getD k 0) fixed)
      fun x => x.length = n ∧ C k x) :
    Returns (fitColumns ls M data P fixed) fun new => Shape new n 3 ∧ ∀ k < 3, ∃ x, C k x ∧
      ∀ i < n, coord new k i = x.getD i 0 := by
  have h : Returns (fitColumns ls M data P fixed) fun new => Shape new n 3 := by
    unfold fitColumns
    rw [column_nat hd 0 0 rfl (by omega), ok_bind, column_nat hP 0 0 rfl (by omega), ok_bind]
    refine Returns.bind (key 0 (by omega)) fun x hx => ?_
    rw [column_nat hd 1 1 rfl (by omega), ok_bind, column_nat hP 1 1 rfl (by omega), ok_bind]
    refine Returns.bind (key 1 (by omega)) fun y hy => ?_
    rw [column_nat hd 2 2 rfl (by omega), ok_bind, column_nat hP 2 2 rfl (by omega), ok_bind]
    refine Returns.bind (key 2 (by omega)) fun z hz => ?_
    unfold columnStack3
    rw [if_pos ⟨by omega, by omega⟩]
    refine Returns.ok ⟨by simp [hx.1], fun row hr => ?_⟩
    obtain ⟨i, -, rfl⟩ := List.mem_map.1 hr
    rfl
  obtain ⟨new, hnew, hs⟩ := h
  refine ⟨new, hnew, hs, fun k hk => ?_⟩
  obtain ⟨x, hx, hxe⟩ := fitColumns_columns hd hw hP hnew k hk
  obtain ⟨x', hx', -, hC⟩ := key k hk
  rw [hx] at hx'
  cases hx'
  exact ⟨x, hC, hxe⟩

/-- The squared distance in coordinate `k` when the matrix is `M`. -/
theorem fitColumns_spec {ls : ℕ → List (List K) → List K → List K} (hls : IsLstsq ls)
    {M data P : List (List K)} {fixed : List Bool} {m n w : ℕ} (hM : Shape M m n)
    (hd : Shape data m w) (hw : 3 ≤ w) (hP : Shape P n 3) (hf : fixed.length = n) :
    Returns (fitColumns ls M data P fixed) fun new => Shape new n 3 ∧ ∀ k < 3,
      (∀ i < n, fixed.getD i false = true → coord new k i = coord P k i) ∧
      ∀ z : ℕ → K, (∀ i < n, fixed.getD i false = true → z i = coord P k i) →
        sqResid M n (coord new k) (data.map fun row => row.getD k 0)
          ≤ sqResid M n z (data.map fun row => row.getD k 0) := by
  have key : ∀ k : ℕ, k < 3 → Returns (linearFitFixed ls M (data.map fun row => row.getD k 0)
      (P.map fun row => row.getD k 0) fixed) fun x => x.length = n ∧
      (∀ i < n, fixed.getD i false = true → x.getD i 0 = coord P k i) ∧
      ∀ z : ℕ → K, (∀ i < n, fixed.getD i false = true → z i = coord P k i) →
        sqResid M n (fun i => x.getD i 0) (data.map fun row => row.getD k 0)
          ≤ sqResid M n z (data.map fun row => row.getD k 0) := by
    intro k hk
    have l1 : (data.map fun row => row.getD k 0).length = m := by simp [hd.1]
    have l2 : (P.map fun row => row.getD k 0).length = n := by simp [hP.1]
    have := linearFitFixed_spec hls (R := M) (Q := data.map fun row => row.getD k 0)
      (P := P.map fun row => row.getD k 0) (fixed := fixed) (by rw [l1, l2]; exact hM)
      (by rw [l2]; exact hf)
    refine this.mono fun x hx => ?_
    rw [l2] at hx
    have ec : ∀ i, (P.map fun row => row.getD k 0).getD i 0 = coord P k i := fun i =>
      getD_map_row P i k
    simp only [ec] at hx
    exact hx
  unfold fitColumns
  rw [column_nat hd 0 0 rfl (by omega), ok_bind, column_nat hP 0 0 rfl (by omega), ok_bind]
  refine Returns.bind (key 0 (by omega)) fun x hx => ?_
  rw [column_nat hd 1 1 rfl (by omega), ok_bind, column_nat hP 1 1 rfl (by omega), ok_bind]
  refine Returns.bind (key 1 (by omega)) fun y hy => ?_
  rw [column_nat hd 2 2 rfl (by omega), ok_bind, column_nat hP 2 2 rfl (by omega), ok_bind]
  refine Returns.bind (key 2 (by omega)) fun z hz => ?_
  unfold columnStack3
  rw [if_pos ⟨by omega, by omega⟩]
  have hrow : ∀ i < n, ((List.range x.length).map fun i => [x.getD i 0, y.getD i 0, z.getD i 0]).getD i []
      = [x.getD i 0, y.getD i 0, z.getD i 0] := fun i hi => columnStack3_getD (by omega)
  have hres : ∀ (f : ℕ → K) (g : ℕ → K) b, (∀ i < n, f i = g i) → sqResid M n f b = sqResid M n g b := by
    intro f g b hfg
    unfold sqResid
    refine sum_congr rfl fun r _ => ?_
    congr 2
    exact sum_congr rfl fun i hi => by rw [hfg i (mem_range.1 hi)]
  refine Returns.ok ⟨⟨by simp [hx.1], fun row hr => ?_⟩, fun k hk => ?_⟩
  · obtain ⟨i, -, rfl⟩ := List.mem_map.1 hr; rfl
  · match k, hk with
    | 0, _ =>
      have e : ∀ i < n, coord ((List.range x.length).map fun i => [x.getD i 0, y.getD i 0, z.getD i 0]) 0 i
          = x.getD i 0 := fun i hi => by unfold coord; rw [hrow i hi]; rfl
      refine ⟨fun i hi hfi => by rw [e i hi]; exact hx.2.1 i hi hfi, fun w hw' => ?_⟩
      rw [hres _ _ _ e]; exact hx.2.2 w hw'
    | 1, _ =>
      have e : ∀ i < n, coord ((List.range x.length).map fun i => [x.getD i 0, y.getD i 0, z.getD i 0]) 1 i
          = y.getD i 0 := fun i hi => by unfold coord; rw [hrow i hi]; rfl
      refine ⟨fun i hi hfi => by rw [e i hi]; exact hy.2.1 i hi hfi, fun w hw' => ?_⟩
      rw [hres _ _ _ e]; exact hy.2.2 w hw'
    | 2, _ =>
      have e : ∀ i < n, coord ((List.range x.length).map fun i => [x.getD i 0, y.getD i 0, z.getD i 0]) 2 i
          = z.getD i 0 := fun i hi => by unfold coord; rw [hrow i hi]; rfl
      refine ⟨fun i hi hfi => by rw [e i hi]; exact hz.2.1 i hi hfi, fun w hw' => ?_⟩
      rw [hres _ _ _ e]; exact hz.2.2 w hw'

end

end PySpline
