import Verif.SpecInversion

/-!
# Lemmas on the runs of the inversion loops
-/

set_option linter.unusedSectionVars false

namespace PySpline

variable {K : Type} [Field K] [LinearOrder K] [IsStrictOrderedRing K]

theorem Euclidean.nonneg3 {nm : Num K} (h : Euclidean nm) {l : List K} (hl : l.length = 3) : 0 ≤ nm.norm l := by
  obtain ⟨x, y, z, rfl⟩ := List.length_eq_three.1 hl
  exact h.nonneg x y z

/-- Comparing a Euclidean norm with a tolerance is comparing squares. -/
theorem Euclidean.le_iff {nm : Num K} (h : Euclidean nm) {l : List K} (hl : l.length = 3) {e : K} (he : 0 ≤ e) :
    nm.norm l ≤ e ↔ ip l l ≤ e ^ 2 := by
  rw [← h.sq_ip hl]
  exact (pow_le_pow_iff_left₀ (h.nonneg3 hl) he two_ne_zero).symm

/-- The quotient test on Euclidean norms, without division and roots. -/
theorem Euclidean.ratio_iff {nm : Num K} (h : Euclidean nm) {a r : List K} (ha : a.length = 3) (hr : r.length = 3)
    {e : K} (he : 0 ≤ e) : ratioLe |ip a r| (nm.norm a * nm.norm r) e = true ↔
      ip a a ≠ 0 ∧ ip r r ≠ 0 ∧ ip a r ^ 2 ≤ e ^ 2 * (ip a a * ip r r) := by
  have na := h.nonneg3 ha
  have nr := h.nonneg3 hr
  rw [← h.sq_ip ha, ← h.sq_ip hr]
  unfold ratioLe
  split
  · rename_i hz
    have : nm.norm a = 0 ∨ nm.norm r = 0 := mul_eq_zero.1 hz
    simp only [Bool.false_eq_true, ne_eq, false_iff]
    rintro ⟨p, q, -⟩
    rcases this with e | e
    · exact p (by rw [e]; ring)
    · exact q (by rw [e]; ring)
  · rename_i hz
    have hpos : 0 < nm.norm a * nm.norm r := lt_of_le_of_ne (mul_nonneg na nr) (Ne.symm hz)
    have hz' := mul_ne_zero_iff.1 hz
    rw [decide_eq_true_iff, div_le_iff₀ hpos,
      ← pow_le_pow_iff_left₀ (abs_nonneg _) (mul_nonneg he hpos.le) two_ne_zero, sq_abs, mul_pow, mul_pow]
    constructor
    · intro h
      exact ⟨pow_ne_zero 2 hz'.1, pow_ne_zero 2 hz'.2, h⟩
    · intro h
      exact h.2.2

theorem ip_scale {l : List K} (hl : l.length = 3) (t : K) :
    ip (l.map fun i => i * t) (l.map fun i => i * t) = t ^ 2 * ip l l := by
  obtain ⟨x, y, z, rfl⟩ := List.length_eq_three.1 hl
  simp [ip]
  ring

/-! ## Curves -/

theorem newtonPoint_mem (c c1 c2 : K → List K) (p : List K) (u : K) :
    0 ≤ newtonPoint c c1 c2 p u ∧ newtonPoint c c1 c2 p u ≤ 1 :=
  ⟨le_max_left _ _, max_le zero_le_one (min_le_left _ _)⟩

theorem sub3_length (a b : List K) : (sub3 a b).length = 3 := rfl

theorem curveCond1_iff {nm : Num K} (hE : Euclidean nm) {C : CurveLike K} {c c1 c2 : K → List K}
    (hC : C.Smooth c c1 c2) {p : List K} (hp : p.length = 3) {eps1 : K} (he : 0 ≤ eps1) {u : K} (h0 : 0 ≤ u)
    (h1 : u ≤ 1) : curveCond1 nm C p eps1 u = .ok (decide (ip (sub3 (c u) p) (sub3 (c u) p) ≤ eps1 ^ 2)) := by
  unfold curveCond1
  rw [hC.pt u h0 h1, ok_bind, vsub_len3 (hC.len u).1 hp, ok_bind]
  congr 1
  exact decide_eq_decide.2 (hE.le_iff rfl he)

theorem curveCond2_iff {nm : Num K} (hE : Euclidean nm) {C : CurveLike K} {c c1 c2 : K → List K}
    (hC : C.Smooth c c1 c2) {p : List K} (hp : p.length = 3) {eps2 : K} (he : 0 ≤ eps2) {u : K} :
    curveCond2 nm p eps2 ⟨u, c u, c1 u, c2 u⟩ = .ok (decide (ip (c1 u) (c1 u) ≠ 0 ∧
      ip (sub3 (c u) p) (sub3 (c u) p) ≠ 0 ∧ ip (c1 u) (sub3 (c u) p) ^ 2
        ≤ eps2 ^ 2 * (ip (c1 u) (c1 u) * ip (sub3 (c u) p) (sub3 (c u) p)))) := by
  unfold curveCond2
  dsimp only
  rw [vsub_len3 (hC.len u).1 hp, ok_bind, dot_len3 (hC.len u).2.1 rfl, ok_bind]
  congr 1
  rw [Bool.eq_iff_iff, decide_eq_true_iff]
  exact hE.ratio_iff (hC.len u).2.1 rfl he

theorem curveLoop_unfold {nm : Num K} (hE : Euclidean nm) {C : CurveLike K} {c c1 c2 : K → List K}
    (hC : C.Smooth c c1 c2) {p : List K} (hp : p.length = 3) {eps1 eps2 : K} (he1 : 0 ≤ eps1) (he2 : 0 ≤ eps2)
    {maxIter : ℤ} (fuel : ℕ) (j : ℤ) {u : K}
    (hd : ip (c2 u) (sub3 (c u) p) + ip (c1 u) (c1 u) ≠ 0) :
    (Ends c c1 p eps1 eps2 u (newtonPoint c c1 c2 p u) →
      curveLoop nm C p eps1 eps2 maxIter (fuel + 1) j ⟨u, c u, c1 u, c2 u⟩ = .ok u) ∧
    (¬ Ends c c1 p eps1 eps2 u (newtonPoint c c1 c2 p u) →
      curveLoop nm C p eps1 eps2 maxIter (fuel + 1) j ⟨u, c u, c1 u, c2 u⟩ =
        if j > maxIter then .ok (newtonPoint c c1 c2 p u)
        else curveLoop nm C p eps1 eps2 maxIter fuel (j + 1) ⟨newtonPoint c c1 c2 p u,
          c (newtonPoint c c1 c2 p u), c1 (newtonPoint c c1 c2 p u), c2 (newtonPoint c c1 c2 p u)⟩) := by
  obtain ⟨l0, l1, l2⟩ := hC.len u
  obtain ⟨m0, m1⟩ := newtonPoint_mem c c1 c2 p u
  have hstep : newtonStep nm u (ip (c1 u) (sub3 (c u) p)) (ip (c2 u) (sub3 (c u) p) + nm.norm (c1 u) ^ 2)
      = .ok (newtonPoint c c1 c2 p u) := by
    unfold newtonStep newtonPoint
    rw [hE.sq_ip l1, if_neg hd, clamp01_eq]
  have hshort : nm.norm ((c1 u).map fun i => i * (newtonPoint c c1 c2 p u - u)) ≤ eps1 ↔
      (newtonPoint c c1 c2 p u - u) ^ 2 * ip (c1 u) (c1 u) ≤ eps1 ^ 2 := by
    rw [hE.le_iff (by rw [List.length_map, l1]) he1, ip_scale l1]
  rw [curveLoop]
  dsimp only
  rw [vsub_len3 l0 hp, ok_bind, dot_len3 l1 rfl, ok_bind, dot_len3 l2 rfl, ok_bind, hstep, ok_bind, hC.info m0 m1,
    ok_bind, curveCond1_iff hE hC hp he1 m0 m1, ok_bind, curveCond2_iff hE hC hp he2, ok_bind]
  unfold Ends Accepted
  dsimp only
  constructor
  · rintro (h | h | h)
    · rw [if_pos (hshort.2 h)]
    · split
      · rfl
      · rw [if_pos (decide_eq_true h)]
    · split
      · rfl
      · split
        · rfl
        · rw [if_pos (decide_eq_true h)]
  · intro h
    rw [not_or, not_or] at h
    rw [if_neg (fun e => h.1 (hshort.1 e)), if_neg (by simpa using h.2.1), if_neg (by rw [decide_eq_true_iff]; exact h.2.2)]

/-- The loop reaches the iterate number `n` if no step before ends it. -/
theorem curveLoop_reach {nm : Num K} (hE : Euclidean nm) {C : CurveLike K} {c c1 c2 : K → List K}
    (hC : C.Smooth c c1 c2) {p : List K} (hp : p.length = 3) {eps1 eps2 : K} (he1 : 0 ≤ eps1) (he2 : 0 ≤ eps2)
    {maxIter : ℤ} {x : ℕ → K} (hx : ∀ k, x (k + 1) = newtonPoint c c1 c2 p (x k)) (n : ℕ)
    (hd : ∀ k < n, ip (c2 (x k)) (sub3 (c (x k)) p) + ip (c1 (x k)) (c1 (x k)) ≠ 0)
    (hgo : ∀ k < n, ¬ Ends c c1 p eps1 eps2 (x k) (x (k + 1))) (hn : (n : ℤ) ≤ maxIter + 1) (fuel : ℕ) :
    curveLoop nm C p eps1 eps2 maxIter (n + fuel) 0 ⟨x 0, c (x 0), c1 (x 0), c2 (x 0)⟩
      = curveLoop nm C p eps1 eps2 maxIter fuel n ⟨x n, c (x n), c1 (x n), c2 (x n)⟩ := by
  induction n generalizing fuel with
  | zero => rw [Nat.zero_add]; rfl
  | succ n ih =>
    rw [show n + 1 + fuel = n + (fuel + 1) by omega,
      ih (fun k hk => hd k (by omega)) (fun k hk => hgo k (by omega)) (by push_cast at hn; omega) (fuel + 1)]
    have := (curveLoop_unfold hE hC hp he1 he2 (maxIter := maxIter) fuel (n : ℤ) (hd n (by omega))).2
    rw [← hx n] at this
    rw [this (hgo n (by omega)), if_neg (by push_cast at hn; omega), Nat.cast_succ]

/-! ## Surfaces -/

theorem newtonPair_mem (D : ℕ → ℕ → K → K → List K) (p : List K) (z x : K × K) : InSquare (newtonPair D p z x) :=
  ⟨⟨le_max_left _ _, max_le zero_le_one (min_le_left _ _)⟩, le_max_left _ _, max_le zero_le_one (min_le_left _ _)⟩

theorem surfStep_eq {nm : Num K} (hE : Euclidean nm) {S : SurfLike K} {D : ℕ → ℕ → K → K → List K}
    (hS : S.Smooth D) {p : List K} (hp : p.length = 3) {x z : K × K} (hx : InSquare x)
    (hd : (footJac D p z x).1 * (footJac D p z x).2.2 - (footJac D p z x).2.1 ^ 2 ≠ 0) :
    surfStep nm S p x.1 x.2 ⟨D 1 0 z.1 z.2, D 0 1 z.1 z.2, D 2 0 z.1 z.2, D 0 2 z.1 z.2,
      D 1 1 z.1 z.2⟩ = .ok (newtonPair D p z x) := by
  obtain ⟨⟨h1, h2⟩, h3, h4⟩ := hx
  have L := fun a b => hS.len a b z.1 z.2
  unfold surfStep
  dsimp only
  rw [hS.pt _ _ h1 h2 h3 h4, ok_bind, vsub_len3 (hS.len _ _ _ _) hp, ok_bind, dot_len3 rfl (L 1 0),
    ok_bind, dot_len3 rfl (L 0 1), ok_bind, dot_len3 rfl (L 2 0), ok_bind, dot_len3 (L 1 0) (L 0 1),
    ok_bind, dot_len3 rfl (L 1 1), ok_bind, dot_len3 rfl (L 0 2), ok_bind, hE.sq_ip (L 1 0),
    hE.sq_ip (L 0 1)]
  unfold newtonPair
  unfold footJac at hd ⊢
  dsimp only at hd ⊢
  rw [pow_two] at hd ⊢
  rw [if_neg hd, clamp01_eq, clamp01_eq]
  refine congrArg Except.ok (Prod.ext ?_ ?_) <;> dsimp only <;> congr 2 <;> ring

theorem surfCond1_iff {nm : Num K} (hE : Euclidean nm) {S : SurfLike K} {D : ℕ → ℕ → K → K → List K}
    (hS : S.Smooth D) {p : List K} (hp : p.length = 3) {eps1 : K} (he : 0 ≤ eps1) {x : K × K} (hx : InSquare x) :
    surfCond1 nm S p eps1 x.1 x.2 =
      .ok (decide (ip (sub3 (D 0 0 x.1 x.2) p) (sub3 (D 0 0 x.1 x.2) p) ≤ eps1 ^ 2)) := by
  obtain ⟨⟨h1, h2⟩, h3, h4⟩ := hx
  unfold surfCond1
  rw [hS.pt _ _ h1 h2 h3 h4, ok_bind, vsub_len3 (hS.len _ _ _ _) hp, ok_bind]
  congr 1
  exact decide_eq_decide.2 (hE.le_iff rfl he)

theorem surfCond2_iff {nm : Num K} (hE : Euclidean nm) {S : SurfLike K} {D : ℕ → ℕ → K → K → List K}
    (hS : S.Smooth D) {p : List K} (hp : p.length = 3) {eps2 : K} (he : 0 ≤ eps2) {x : K × K} (hx : InSquare x)
    (z : K × K) (d2 d3 d4 : List K) :
    surfCond2 nm S p eps2 x.1 x.2 ⟨D 1 0 z.1 z.2, D 0 1 z.1 z.2, d2, d3, d4⟩ =
      .ok (decide (ip (D 1 0 z.1 z.2) (D 1 0 z.1 z.2) ≠ 0 ∧ ip (D 0 1 z.1 z.2) (D 0 1 z.1 z.2) ≠ 0 ∧
        ip (sub3 (D 0 0 x.1 x.2) p) (sub3 (D 0 0 x.1 x.2) p) ≠ 0 ∧
        ip (D 1 0 z.1 z.2) (sub3 (D 0 0 x.1 x.2) p) ^ 2 ≤ eps2 ^ 2 * (ip (D 1 0 z.1 z.2) (D 1 0 z.1 z.2) *
          ip (sub3 (D 0 0 x.1 x.2) p) (sub3 (D 0 0 x.1 x.2) p)) ∧
        ip (D 0 1 z.1 z.2) (sub3 (D 0 0 x.1 x.2) p) ^ 2 ≤ eps2 ^ 2 * (ip (D 0 1 z.1 z.2) (D 0 1 z.1 z.2) *
          ip (sub3 (D 0 0 x.1 x.2) p) (sub3 (D 0 0 x.1 x.2) p)))) := by
  obtain ⟨⟨h1, h2⟩, h3, h4⟩ := hx
  unfold surfCond2
  dsimp only
  rw [hS.pt _ _ h1 h2 h3 h4, ok_bind, vsub_len3 (hS.len _ _ _ _) hp, ok_bind,
    dot_len3 (hS.len _ _ _ _) rfl, ok_bind, dot_len3 (hS.len _ _ _ _) rfl, ok_bind]
  congr 1
  rw [Bool.eq_iff_iff, decide_eq_true_iff, Bool.and_eq_true, hE.ratio_iff (hS.len _ _ _ _) rfl he,
    hE.ratio_iff (hS.len _ _ _ _) rfl he]
  tauto

theorem surfLoop_unfold {nm : Num K} (hE : Euclidean nm) {S : SurfLike K} {D : ℕ → ℕ → K → K → List K}
    (hS : S.Smooth D) {p : List K} (hp : p.length = 3) {eps1 eps2 : K} (he1 : 0 ≤ eps1) (he2 : 0 ≤ eps2)
    {maxIter : ℤ} (fuel : ℕ) (j : ℤ) {x z : K × K} (hx : InSquare x)
    (hd : (footJac D p z x).1 * (footJac D p z x).2.2 - (footJac D p z x).2.1 ^ 2 ≠ 0) :
    surfLoop nm S p eps1 eps2 maxIter (fuel + 1) j x.1 x.2 ⟨D 1 0 z.1 z.2, D 0 1 z.1 z.2, D 2 0 z.1 z.2,
      D 0 2 z.1 z.2, D 1 1 z.1 z.2⟩ =
    open Classical in
      if Ends2 D p eps1 eps2 z x (newtonPair D p z x) ∨ j ≥ maxIter then .ok (newtonPair D p z x)
      else surfLoop nm S p eps1 eps2 maxIter fuel (j + 1) (newtonPair D p z x).1 (newtonPair D p z x).2
        ⟨D 1 0 x.1 x.2, D 0 1 x.1 x.2, D 2 0 x.1 x.2, D 0 2 x.1 x.2, D 1 1 x.1 x.2⟩ := by
  have hy := newtonPair_mem D p z x
  obtain ⟨a, b, c, ha⟩ := List.length_eq_three.1 (hS.len 1 0 z.1 z.2)
  obtain ⟨a', b', c', hb⟩ := List.length_eq_three.1 (hS.len 0 1 z.1 z.2)
  rw [surfLoop, surfStep_eq hE hS hp hx hd, ok_bind]
  set y := newtonPair D p z x with hyd
  have hw : vadd ((D 1 0 z.1 z.2).map fun t => (y.1 - x.1) * t) ((D 0 1 z.1 z.2).map fun t => (y.2 - x.2) * t)
      = .ok [(y.1 - x.1) * a + (y.2 - x.2) * a', (y.1 - x.1) * b + (y.2 - x.2) * b',
          (y.1 - x.1) * c + (y.2 - x.2) * c'] := by
    rw [ha, hb]; rfl
  have hshort : nm.norm [(y.1 - x.1) * a + (y.2 - x.2) * a', (y.1 - x.1) * b + (y.2 - x.2) * b',
          (y.1 - x.1) * c + (y.2 - x.2) * c'] ≤ eps1 ↔
      (y.1 - x.1) ^ 2 * ip (D 1 0 z.1 z.2) (D 1 0 z.1 z.2) +
        2 * (y.1 - x.1) * (y.2 - x.2) * ip (D 1 0 z.1 z.2) (D 0 1 z.1 z.2) +
        (y.2 - x.2) ^ 2 * ip (D 0 1 z.1 z.2) (D 0 1 z.1 z.2) ≤ eps1 ^ 2 := by
    rw [hE.le_iff rfl he1, ha, hb]
    simp only [ip, List.getD_cons_zero, List.getD_cons_succ]
    rw [iff_iff_eq]
    congr 1
    ring
  dsimp only
  rw [hw, ok_bind, hS.info hx.1.1 hx.1.2 hx.2.1 hx.2.2, ok_bind, surfCond1_iff hE hS hp he1 hy, ok_bind,
    surfCond2_iff hE hS hp he2 hy, ok_bind]
  unfold Ends2 Accepted2
  dsimp only
  by_cases g1 : nm.norm [(y.1 - x.1) * a + (y.2 - x.2) * a', (y.1 - x.1) * b + (y.2 - x.2) * b',
          (y.1 - x.1) * c + (y.2 - x.2) * c'] ≤ eps1
  · rw [if_pos g1, if_pos (Or.inl (Or.inl (hshort.1 g1)))]
  rw [if_neg g1]
  have g1' := fun e => g1 (hshort.2 e)
  split
  · rename_i g2
    rw [if_pos (Or.inl (Or.inr (Or.inl (of_decide_eq_true g2))))]
  rename_i g2
  split
  · rename_i g3
    rw [if_pos (Or.inl (Or.inr (Or.inr (of_decide_eq_true g3))))]
  rename_i g3
  rw [decide_eq_true_iff] at g2 g3
  split
  · rename_i g4
    rw [if_pos (Or.inr g4)]
  · rename_i g4
    rw [if_neg]
    rintro ((e | e | e) | e)
    · exact g1' e
    · exact g2 e
    · exact g3 e
    · exact g4 e

/-- The loop reaches the iterate number `n` if no step before ends it. -/
theorem surfLoop_reach {nm : Num K} (hE : Euclidean nm) {S : SurfLike K} {D : ℕ → ℕ → K → K → List K}
    (hS : S.Smooth D) {p : List K} (hp : p.length = 3) {eps1 eps2 : K} (he1 : 0 ≤ eps1) (he2 : 0 ≤ eps2)
    {maxIter : ℤ} {x : ℕ → K × K} (hx0 : InSquare (x 0))
    (hx : ∀ k, x (k + 1) = newtonPair D p (x (k - 1)) (x k)) (n : ℕ)
    (hd : ∀ k < n, (footJac D p (x (k - 1)) (x k)).1 * (footJac D p (x (k - 1)) (x k)).2.2
      - (footJac D p (x (k - 1)) (x k)).2.1 ^ 2 ≠ 0)
    (hgo : ∀ k < n, ¬ Ends2 D p eps1 eps2 (x (k - 1)) (x k) (x (k + 1))) (hn : (n : ℤ) ≤ max 0 maxIter) (fuel : ℕ) :
    surfLoop nm S p eps1 eps2 maxIter (n + fuel) 0 (x 0).1 (x 0).2 ⟨D 1 0 (x 0).1 (x 0).2,
        D 0 1 (x 0).1 (x 0).2, D 2 0 (x 0).1 (x 0).2, D 0 2 (x 0).1 (x 0).2, D 1 1 (x 0).1 (x 0).2⟩
      = surfLoop nm S p eps1 eps2 maxIter fuel n (x n).1 (x n).2 ⟨D 1 0 (x (n - 1)).1 (x (n - 1)).2,
        D 0 1 (x (n - 1)).1 (x (n - 1)).2, D 2 0 (x (n - 1)).1 (x (n - 1)).2, D 0 2 (x (n - 1)).1 (x (n - 1)).2,
        D 1 1 (x (n - 1)).1 (x (n - 1)).2⟩ := by
  have hin : ∀ k, InSquare (x k) := by
    intro k
    cases k with
    | zero => exact hx0
    | succ k => rw [hx k]; exact newtonPair_mem _ _ _ _
  induction n generalizing fuel with
  | zero => rw [Nat.zero_add]; rfl
  | succ n ih =>
    rw [show n + 1 + fuel = n + (fuel + 1) by omega,
      ih (fun k hk => hd k (by omega)) (fun k hk => hgo k (by omega)) (by push_cast at hn; omega) (fuel + 1),
      surfLoop_unfold hE hS hp he1 he2 fuel (n : ℤ) (hin n) (hd n (by omega)), ← hx n, if_neg, Nat.cast_succ,
      Nat.add_sub_cancel]
    rintro (e | e)
    · exact hgo n (by omega) e
    · push_cast at hn
      rcases le_total maxIter 0 with h | h
      · rw [max_eq_left h] at hn; omega
      · rw [max_eq_right h] at hn; omega

/-- A singular Jacobian makes the step raise. -/
theorem surfStep_singular {nm : Num K} (hE : Euclidean nm) {S : SurfLike K} {D : ℕ → ℕ → K → K → List K}
    (hS : S.Smooth D) {p : List K} (hp : p.length = 3) {x z : K × K} (hx : InSquare x)
    (hd : (footJac D p z x).1 * (footJac D p z x).2.2 - (footJac D p z x).2.1 ^ 2 = 0) :
    surfStep nm S p x.1 x.2 ⟨D 1 0 z.1 z.2, D 0 1 z.1 z.2, D 2 0 z.1 z.2, D 0 2 z.1 z.2,
      D 1 1 z.1 z.2⟩ = .error .linAlgError := by
  obtain ⟨⟨h1, h2⟩, h3, h4⟩ := hx
  have L := fun a b => hS.len a b z.1 z.2
  unfold surfStep
  dsimp only
  rw [hS.pt _ _ h1 h2 h3 h4, ok_bind, vsub_len3 (hS.len _ _ _ _) hp, ok_bind, dot_len3 rfl (L 1 0),
    ok_bind, dot_len3 rfl (L 0 1), ok_bind, dot_len3 rfl (L 2 0), ok_bind, dot_len3 (L 1 0) (L 0 1),
    ok_bind, dot_len3 rfl (L 1 1), ok_bind, dot_len3 rfl (L 0 2), ok_bind, hE.sq_ip (L 1 0),
    hE.sq_ip (L 0 1)]
  unfold footJac at hd
  dsimp only at hd
  rw [pow_two] at hd
  rw [if_pos hd]

end PySpline
