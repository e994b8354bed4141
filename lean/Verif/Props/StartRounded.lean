import Verif.Props.AnyArithmetic
import Verif.Props.KnotsDouble
import Verif.Props.Double
import Verif.Props.StartValues
import Verif.Lemmas.StartRounded

/-!
# C158: the start values in rounded arithmetic
-/

set_option linter.unusedSectionVars false

namespace PySpline

open Ext Spec Finset

section
variable {K : Type} [Field K] [LinearOrder K] [IsStrictOrderedRing K]

/-- **C158.** `initial_guess_curve` with computed distances that are right up to a factor `c`: it returns an entry of
the grid, the computed point there is, up to the factor `c²`, at least as close as the computed points at all others
when one of them is closer than `c * 10^6`, and it returns the first entry when all are farther than `10^6 / c`. -/
theorem initial_guess_curve_measured {A : Arith K} {norm : List K → K} {c : K} (hA : A.Measures norm c)
    (C : CurveLike (Ext K)) (hn : 0 < C.numCtrl) (x y z : K) (Q : ℕ → ℕ → K)
    (hQ : ∀ k < 2 * C.numCtrl, C.singlePoint (A.gridPoint (2 * C.numCtrl) k)
      = .ok [fin (Q k 0), fin (Q k 1), fin (Q k 2)]) :
    ∃ k < 2 * C.numCtrl,
      initialGuessCurveA A C [fin x, fin y, fin z] = .ok (A.gridPoint (2 * C.numCtrl) k) ∧
      ((∃ j < 2 * C.numCtrl, norm [x - Q j 0, y - Q j 1, z - Q j 2] < c * 10 ^ 6) → ∀ j < 2 * C.numCtrl,
        c ^ 2 * norm [x - Q k 0, y - Q k 1, z - Q k 2] ≤ norm [x - Q j 0, y - Q j 1, z - Q j 2]) ∧
      ((∀ j < 2 * C.numCtrl, 10 ^ 6 < c * norm [x - Q j 0, y - Q j 1, z - Q j 2]) → k = 0) := by
  choose d hd hlo hhi using fun k => hA.dist x y z (Q k 0) (Q k 1) (Q k 2)
  have hN : 0 < 2 * C.numCtrl := by omega
  have key : Returns (initialGuessCurveA A C [fin x, fin y, fin z]) fun u => ∃ k m,
      u = A.gridPoint (2 * C.numCtrl) k ∧ Best d (2 * C.numCtrl) m k := by
    unfold initialGuessCurveA
    dsimp only
    rw [show pyGet (gridA A (2 * C.numCtrl)) 0 = .ok (A.gridPoint (2 * C.numCtrl) 0) from
      pyGet_gridA hN, ok_bind]
    refine Returns.bind (Returns.forN (fun t (st : Ext K × Ext K) => ∃ k m,
      st = (fin m, A.gridPoint (2 * C.numCtrl) k) ∧ Best d t m k) (by omega) ?_ ?_) ?_
    · exact ⟨0, hugeDist, rfl, Or.inl ⟨rfl, rfl, fun j hj => absurd hj (by omega)⟩⟩
    · rintro i st _ hi ⟨k, m, rfl, hb⟩
      dsimp only
      rw [pyGet_gridA hi, ok_bind, hQ i hi, ok_bind, vsubA_three, ok_bind, hd i, lt_fin]
      by_cases hlt : d i < m
      · rw [if_pos (decide_eq_true hlt)]
        exact Returns.ok ⟨i, d i, rfl, hb.take hlt⟩
      · rw [if_neg (by simpa using hlt)]
        exact Returns.ok ⟨k, m, rfl, hb.keep hlt⟩
    · rintro st ⟨k, m, rfl, hb⟩
      exact Returns.ok ⟨k, m, rfl, hb⟩
  obtain ⟨u, hu, k, m, rfl, hb⟩ := key
  exact ⟨k, hb.lt hN, hu, hb.measured hA.pos hA.le_one hlo hhi hN⟩

/-- **C158.** The same for `initial_guess_surf`. -/
theorem initial_guess_surf_measured {A : Arith K} {norm : List K → K} {c : K} (hA : A.Measures norm c)
    (S : SurfLike (Ext K)) (hu : 0 < S.numU) (hv : 0 < S.numV) (x y z : K) (Q : ℕ → ℕ → ℕ → K)
    (hQ : ∀ a < 2 * S.numU, ∀ b < 2 * S.numV,
      S.singlePoint (A.gridPoint (2 * S.numU) a) (A.gridPoint (2 * S.numV) b)
        = .ok [fin (Q a b 0), fin (Q a b 1), fin (Q a b 2)]) :
    ∃ a < 2 * S.numU, ∃ b < 2 * S.numV,
      initialGuessSurfA A S [fin x, fin y, fin z]
        = .ok (A.gridPoint (2 * S.numU) a, A.gridPoint (2 * S.numV) b) ∧
      ((∃ i < 2 * S.numU, ∃ j < 2 * S.numV, norm [x - Q i j 0, y - Q i j 1, z - Q i j 2] < c * 10 ^ 6) →
        ∀ i < 2 * S.numU, ∀ j < 2 * S.numV,
          c ^ 2 * norm [x - Q a b 0, y - Q a b 1, z - Q a b 2] ≤ norm [x - Q i j 0, y - Q i j 1, z - Q i j 2]) ∧
      ((∀ i < 2 * S.numU, ∀ j < 2 * S.numV, 10 ^ 6 < c * norm [x - Q i j 0, y - Q i j 1, z - Q i j 2]) →
        a = 0 ∧ b = 0) := by
  obtain ⟨M, hM⟩ : ∃ M, M = 2 * S.numV := ⟨_, rfl⟩
  rw [← hM] at hQ ⊢
  have hM0 : 0 < M := by omega
  have hN : 0 < 2 * S.numU := by omega
  choose d hd hlo hhi using fun t : ℕ =>
    hA.dist x y z (Q (t / M) (t % M) 0) (Q (t / M) (t % M) 1) (Q (t / M) (t % M) 2)
  have ediv : ∀ i j, j < M → (i * M + j) / M = i ∧ (i * M + j) % M = j := by
    intro i j hj
    rw [Nat.mul_comm i M, Nat.mul_add_div hM0, Nat.mul_add_mod, Nat.div_eq_of_lt hj, Nat.mod_eq_of_lt hj, Nat.add_zero]
    exact ⟨rfl, rfl⟩
  have hlt : ∀ i j, i < 2 * S.numU → j < M → i * M + j < 2 * S.numU * M := by
    intro i j hi hj
    have := Nat.mul_le_mul_right M (Nat.succ_le_of_lt hi)
    rw [Nat.succ_mul] at this
    omega
  have key : Returns (initialGuessSurfA A S [fin x, fin y, fin z]) fun uv => ∃ k m,
      uv = (A.gridPoint (2 * S.numU) (k / M), A.gridPoint M (k % M)) ∧ Best d (2 * S.numU * M) m k := by
    unfold initialGuessSurfA
    dsimp only
    rw [← hM, show pyGet (gridA A (2 * S.numU)) 0 = .ok (A.gridPoint (2 * S.numU) 0) from pyGet_gridA hN, ok_bind,
      show pyGet (gridA A M) 0 = .ok (A.gridPoint M 0) from pyGet_gridA hM0, ok_bind]
    refine Returns.bind (Returns.forN (fun t (st : Ext K × Ext K × Ext K) => ∃ k m,
      st = (fin m, A.gridPoint (2 * S.numU) (k / M), A.gridPoint M (k % M)) ∧ Best d (t * M) m k) (by omega) ?_ ?_) ?_
    · refine ⟨0, hugeDist, ?_, Or.inl ⟨rfl, rfl, fun j hj => absurd hj (by omega)⟩⟩
      rw [Nat.zero_div, Nat.zero_mod]
    · intro i st _ hi hinv
      refine Returns.mono (Returns.forN (fun t (st : Ext K × Ext K × Ext K) => ∃ k m,
        st = (fin m, A.gridPoint (2 * S.numU) (k / M), A.gridPoint M (k % M)) ∧ Best d (i * M + t) m k) (by omega)
          (by simpa using hinv) ?_) (by intro st' h; rwa [Nat.succ_mul i M])
      rintro j st _ hj ⟨k, m, rfl, hb⟩
      dsimp only
      have e := hd (i * M + j)
      rw [(ediv i j hj).1, (ediv i j hj).2] at e
      rw [pyGet_gridA hi, ok_bind, pyGet_gridA hj, ok_bind, hQ i hi j hj, ok_bind, vsubA_three, ok_bind, e, lt_fin]
      by_cases h : d (i * M + j) < m
      · rw [if_pos (decide_eq_true h)]
        refine Returns.ok ⟨i * M + j, d (i * M + j), ?_, hb.take h⟩
        rw [(ediv i j hj).1, (ediv i j hj).2]
      · rw [if_neg (by simpa using h)]
        exact Returns.ok ⟨k, m, rfl, hb.keep h⟩
    · rintro st ⟨k, m, rfl, hb⟩
      exact Returns.ok ⟨k, m, rfl, hb⟩
  obtain ⟨uv, huv, k, m, rfl, hb⟩ := key
  have hk : k < 2 * S.numU * M := hb.lt (Nat.mul_pos hN hM0)
  have hkd : k / M < 2 * S.numU := Nat.div_lt_of_lt_mul (by rwa [Nat.mul_comm] at hk)
  obtain ⟨b1, b2⟩ := hb.measured hA.pos hA.le_one hlo hhi (Nat.mul_pos hN hM0)
  refine ⟨k / M, hkd, k % M, Nat.mod_lt _ hM0, huv, fun ⟨i, hi, j, hj, h⟩ i' hi' j' hj' => ?_, fun h => ?_⟩
  · have := b1 ⟨i * M + j, hlt i j hi hj, by rw [(ediv i j hj).1, (ediv i j hj).2]; exact h⟩ (i' * M + j')
      (hlt i' j' hi' hj')
    rwa [(ediv i' j' hj').1, (ediv i' j' hj').2] at this
  · have := b2 fun t ht => h (t / M) (Nat.div_lt_of_lt_mul (by rwa [Nat.mul_comm] at ht)) (t % M) (Nat.mod_lt _ hM0)
    rw [this, Nat.zero_div, Nat.zero_mod]
    exact ⟨rfl, rfl⟩

/-- **C158.** B-spline curves.  The grid and the points are computed with `fl` in any order of the sums, the distances
are right up to a factor `c`.  Then `initial_guess_curve` returns a number `u0` of `[0, 1]`, and the exact point there
is, up to the factor `c²` and the summands that describe the width of the grid (`L`), the rounding of the grid
parameters, and the rounding of the points (`m`), at least as close as every point of the curve. -/
theorem initial_guess_curve_rounded {A : Arith K} {norm : List K → K} (hnm : IsNorm norm) {c : K}
    (hA : A.Measures norm c) {ρ : K} {fl : K → K} (hr : Rounding fl) (hf : Accurate ρ fl) {close : K → K → Bool}
    (hrefl : ∀ x, close x x = true) {p n d : ℕ} {U : List K} {P : List (List K)} (hU : Clamped p n U) (hp : 1 ≤ p)
    (hP : Shape P n d) (hd : 3 ≤ d) (hreg : AllRegular p n U)
    (hlast : ∀ u ≤ 1, close u (knotFn U n) = true → knotFn U (n - 1) ≤ u) {C : CurveLike (Ext K)} (hC : C.numCtrl = n)
    (hgrid : A.RoundedGrid fl n)
    (hpt : ∀ u, 0 ≤ u → u ≤ 1 → ∃ pt, Curve.PointFl fl close ⟨p, P, U⟩ u pt ∧ C.singlePoint (fin u) = .ok (pt.map fin))
    {x y z : K} {L M : ℕ → K}
    (hL : ∀ k < 3, ∀ i, i + 1 < n →
      |coord P k (i + 1) - coord P k i| * p ≤ L k * (knotFn U (i + p + 1) - knotFn U (i + 1)))
    (hM : ∀ k < 3, ∀ i < n, |coord P k i| ≤ M k) :
    let S : ℕ → K → K := fun k => curve (knotFn U) p n (coord P k)
    let dist : K → K := fun u => norm [x - S 0 u, y - S 1 u, z - S 2 u]
    let m : ℕ → K := fun k => ((1 / ρ) ^ (7 * p + 1) - 1) * M k
    let e : ℕ → K := fun k => L k * (1 / (2 * (2 * n - 1)) + ((1 / ρ) ^ 2 - 1)) + m k
    (∃ u, 0 ≤ u ∧ u ≤ 1 ∧ dist u + norm [e 0, e 1, e 2] < c * 10 ^ 6) →
    ∃ u0, initialGuessCurveA A C [fin x, fin y, fin z] = .ok (fin u0) ∧ 0 ≤ u0 ∧ u0 ≤ 1 ∧
      ∀ u, 0 ≤ u → u ≤ 1 → c ^ 2 * dist u0 ≤ dist u + norm [e 0, e 1, e 2] + norm [m 0, m 1, m 2] := by
  intro S dist m e hclose
  subst hC
  have hn := (Nat.zero_le _).trans_lt hU.size
  set g : ℕ → K := fun k => fl (fl (1 / (((2 * C.numCtrl : ℕ) : K) - 1)) * (k : K)) with hg
  have hLn : ∀ k < 3, 0 ≤ L k := by
    intro k hk
    have r0 := hreg 0 le_rfl zero_le_one
    have r1 := hreg 1 zero_le_one le_rfl
    simpa using (abs_nonneg _).trans (curve_lipschitz_abs hU hp (hL k hk) ⟨r0.lo, r0.hi⟩ ⟨r1.lo, r1.hi⟩)
  -- the computed points
  have hQ : ∀ a, ∃ Q : ℕ → K, a < 2 * C.numCtrl →
      C.singlePoint (A.gridPoint (2 * C.numCtrl) a) = .ok [fin (Q 0), fin (Q 1), fin (Q 2)] ∧
      ∀ k < 3, |Q k - S k (g a)| ≤ m k := by
    intro a
    by_cases ha : a < 2 * C.numCtrl
    · obtain ⟨h0, h1⟩ := hgrid.unit a ha
      obtain ⟨pt, h2, h3⟩ := hpt _ h0 h1
      have rg := hreg _ h0 h1
      obtain ⟨hl, herr⟩ := (single_point_rounded hr hf hrefl hU hp hP hd h0 h1 rg (hlast _ h1)).2 pt h2
      refine ⟨fun k => pt.getD k 0, fun _ => ⟨?_, fun k hk => (herr k hk).trans ?_⟩⟩
      · rw [hgrid.eq a ha, h3]
        match pt, hl with
        | [a, b, c], _ => rfl
      · exact mul_le_mul_of_nonneg_left (curve_le_bound hU ⟨rg.lo, rg.hi⟩ (hM k hk))
          (sub_nonneg.2 (one_le_pow₀ hf.one_le))
    · exact ⟨fun _ => 0, fun h => absurd h ha⟩
  choose Q hQ using hQ
  obtain ⟨k, hk, h0, h1, -⟩ := initial_guess_curve_measured hA C hn x y z Q fun a ha => (hQ a ha).1
  have near : ∀ u, 0 ≤ u → u ≤ 1 → ∃ a < 2 * C.numCtrl,
      ∀ k < 3, |S k u - S k (g a)| ≤ L k * (1 / (2 * (2 * C.numCtrl - 1)) + ((1 / ρ) ^ 2 - 1)) := by
    intro u hu0 hu1
    obtain ⟨a, ha, hd⟩ := nearest_grid (K := K) hn hu0 hu1
    obtain ⟨g0, g1⟩ := hgrid.unit a ha
    have ru := hreg u hu0 hu1
    have rg := hreg _ g0 g1
    refine ⟨a, ha, fun k hk => ?_⟩
    refine (curve_lipschitz_abs hU hp (hL k hk) ⟨rg.lo, rg.hi⟩ ⟨ru.lo, ru.hi⟩).trans ?_
    refine mul_le_mul_of_nonneg_left ?_ (hLn k hk)
    have := abs_sub_le u ((a : K) / (2 * C.numCtrl - 1)) (g a)
    have h2 := grid_rounded hf hn ha
    rw [abs_sub_comm] at h2
    linarith
  obtain ⟨u, hu0, hu1, hu⟩ := hclose
  obtain ⟨a, ha, hd⟩ := near u hu0 hu1
  have hfirst := (nearly_closest hnm one_pos le_rfl (x := x) (y := y) (z := z) (hQ a ha).2 (hQ a ha).2 hd
    (by rw [one_pow, one_mul])).1
  have hmin := h1 ⟨a, ha, hfirst.trans_lt hu⟩
  obtain ⟨g0, g1⟩ := hgrid.unit k hk
  rw [hgrid.eq k hk] at h0
  refine ⟨_, h0, g0, g1, fun v hv0 hv1 => ?_⟩
  obtain ⟨b, hb, hd⟩ := near v hv0 hv1
  exact (nearly_closest hnm hA.pos hA.le_one (x := x) (y := y) (z := z) (hQ k hk).2 (hQ b hb).2 hd (hmin b hb)).2

/-- **C158.** The same for B-spline surfaces. -/
theorem initial_guess_surf_rounded {A : Arith K} {norm : List K → K} (hnm : IsNorm norm) {c : K}
    (hA : A.Measures norm c) {ρ : K} {fl : K → K} (hr : Rounding fl) (hf : Accurate ρ fl) {close : K → K → Bool}
    (hrefl : ∀ x, close x x = true) {s : Surface K} (hs : ClampedSurface s)
    (ru : AllRegular s.degreeU s.numU s.kvU) (rv : AllRegular s.degreeV s.numV s.kvV)
    (hlu : ∀ u ≤ 1, close u (knotFn s.kvU s.numU) = true → knotFn s.kvU (s.numU - 1) ≤ u)
    (hlv : ∀ v ≤ 1, close v (knotFn s.kvV s.numV) = true → knotFn s.kvV (s.numV - 1) ≤ v)
    {T : SurfLike (Ext K)} (hTu : T.numU = s.numU) (hTv : T.numV = s.numV)
    (hgu : A.RoundedGrid fl s.numU) (hgv : A.RoundedGrid fl s.numV)
    (hpt : ∀ u v, (0 ≤ u ∧ u ≤ 1) → (0 ≤ v ∧ v ≤ 1) →
      ∃ pt, s.PointFl fl close u v pt ∧ T.singlePoint (fin u) (fin v) = .ok (pt.map fin))
    {x y z : K} {L M N : ℕ → K}
    (hL : ∀ k < 3, ∀ i j, i + 1 < s.numU → j < s.numV →
      |coord s.ctrlpts k ((i + 1) * s.numV + j) - coord s.ctrlpts k (i * s.numV + j)| * s.degreeU
        ≤ L k * (knotFn s.kvU (i + s.degreeU + 1) - knotFn s.kvU (i + 1)))
    (hM : ∀ k < 3, ∀ i j, i < s.numU → j + 1 < s.numV →
      |coord s.ctrlpts k (i * s.numV + (j + 1)) - coord s.ctrlpts k (i * s.numV + j)| * s.degreeV
        ≤ M k * (knotFn s.kvV (j + s.degreeV + 1) - knotFn s.kvV (j + 1)))
    (hN : ∀ k < 3, ∀ i < s.numU, ∀ j < s.numV, |coord s.ctrlpts k (i * s.numV + j)| ≤ N k) :
    let dist : K → K → K := fun u v => norm [x - s.value 0 u v, y - s.value 1 u v, z - s.value 2 u v]
    let m : ℕ → K := fun k => ((1 / ρ) ^ (7 * s.degreeU + 7 * s.degreeV + 2) - 1) * N k
    let e : ℕ → K := fun k => L k * (1 / (2 * (2 * s.numU - 1)) + ((1 / ρ) ^ 2 - 1))
      + M k * (1 / (2 * (2 * s.numV - 1)) + ((1 / ρ) ^ 2 - 1)) + m k
    (∃ u v, (0 ≤ u ∧ u ≤ 1) ∧ (0 ≤ v ∧ v ≤ 1) ∧ dist u v + norm [e 0, e 1, e 2] < c * 10 ^ 6) →
    ∃ u0 v0, initialGuessSurfA A T [fin x, fin y, fin z] = .ok (fin u0, fin v0) ∧ (0 ≤ u0 ∧ u0 ≤ 1) ∧
      (0 ≤ v0 ∧ v0 ≤ 1) ∧ ∀ u v, (0 ≤ u ∧ u ≤ 1) → (0 ≤ v ∧ v ≤ 1) →
        c ^ 2 * dist u0 v0 ≤ dist u v + norm [e 0, e 1, e 2] + norm [m 0, m 1, m 2] := by
  intro dist m e hclose
  have hnu := (Nat.zero_le _).trans_lt hs.cu.size
  have hnv := (Nat.zero_le _).trans_lt hs.cv.size
  set g : ℕ → ℕ → K := fun n k => fl (fl (1 / (((2 * n : ℕ) : K) - 1)) * (k : K)) with hg
  have hQ : ∀ a b, ∃ Q : ℕ → K, a < 2 * T.numU → b < 2 * T.numV →
      T.singlePoint (A.gridPoint (2 * T.numU) a) (A.gridPoint (2 * T.numV) b)
        = .ok [fin (Q 0), fin (Q 1), fin (Q 2)] ∧
      ∀ k < 3, |Q k - s.value k (g s.numU a) (g s.numV b)| ≤ m k := by
    intro a b
    rw [hTu, hTv]
    by_cases ha : a < 2 * s.numU
    · by_cases hb : b < 2 * s.numV
      · have hu := hgu.unit a ha
        have hv := hgv.unit b hb
        obtain ⟨pt, h2, h3⟩ := hpt _ _ hu hv
        have rg := ru _ hu.1 hu.2
        have rh := rv _ hv.1 hv.2
        obtain ⟨hl, herr⟩ := (surface_point_rounded hr hf hrefl hs hu hv rg rh (hlu _ hu.2) (hlv _ hv.2)).2 pt h2
        refine ⟨fun k => pt.getD k 0, fun _ _ => ⟨?_, fun k hk => (herr k hk).trans ?_⟩⟩
        · rw [hgu.eq a ha, hgv.eq b hb, h3]
          match pt, hl with
          | [a, b, c], _ => rfl
        · exact mul_le_mul_of_nonneg_left (surface_le_bound hs.cu hs.cv ⟨rg.lo, rg.hi⟩ ⟨rh.lo, rh.hi⟩ (hN k hk))
            (sub_nonneg.2 (one_le_pow₀ hf.one_le))
      · exact ⟨fun _ => 0, fun _ h => absurd h hb⟩
    · exact ⟨fun _ => 0, fun h => absurd h ha⟩
  choose Q hQ using hQ
  obtain ⟨a, ha, b, hb, h0, h1, -⟩ := initial_guess_surf_measured hA T (hTu ▸ hnu) (hTv ▸ hnv) x y z Q
    fun a ha b hb => (hQ a b ha hb).1
  rw [hTu, hTv] at h1 h0
  rw [hTu] at ha
  rw [hTv] at hb
  simp only [hTu, hTv] at hQ
  have near : ∀ u v, (0 ≤ u ∧ u ≤ 1) → (0 ≤ v ∧ v ≤ 1) → ∃ i < 2 * s.numU, ∃ j < 2 * s.numV,
      ∀ k < 3, |s.value k u v - s.value k (g s.numU i) (g s.numV j)|
        ≤ L k * (1 / (2 * (2 * s.numU - 1)) + ((1 / ρ) ^ 2 - 1))
          + M k * (1 / (2 * (2 * s.numV - 1)) + ((1 / ρ) ^ 2 - 1)) := by
    intro u v hu hv
    obtain ⟨i, hi, hdi⟩ := nearest_grid (K := K) hnu hu.1 hu.2
    obtain ⟨j, hj, hdj⟩ := nearest_grid (K := K) hnv hv.1 hv.2
    refine ⟨i, hi, j, hj, fun k hk => ?_⟩
    have ru' := ru u hu.1 hu.2
    have rg := ru _ (hgu.unit i hi).1 (hgu.unit i hi).2
    have rv' := rv v hv.1 hv.2
    have rh := rv _ (hgv.unit j hj).1 (hgv.unit j hj).2
    have r0 := ru 0 le_rfl zero_le_one
    have r1 := ru 1 zero_le_one le_rfl
    have q0 := rv 0 le_rfl zero_le_one
    have q1 := rv 1 zero_le_one le_rfl
    have lip := fun {a b c d : K} => surface_lipschitz hs.cu hs.cv hs.du hs.dv (hL k hk) (hM k hk) (s := a) (t := b)
      (u := c) (v := d)
    have hLn : 0 ≤ L k := by
      simpa using (abs_nonneg _).trans (lip ⟨r1.lo, r1.hi⟩ ⟨r0.lo, r0.hi⟩ ⟨q0.lo, q0.hi⟩ ⟨q0.lo, q0.hi⟩)
    have hMn : 0 ≤ M k := by
      simpa using (abs_nonneg _).trans (lip ⟨r0.lo, r0.hi⟩ ⟨r0.lo, r0.hi⟩ ⟨q1.lo, q1.hi⟩ ⟨q0.lo, q0.hi⟩)
    have a1 := abs_sub_le u ((i : K) / (2 * s.numU - 1)) (g s.numU i)
    have a2 := grid_rounded hf hnu hi
    rw [abs_sub_comm] at a2
    have b1 := abs_sub_le v ((j : K) / (2 * s.numV - 1)) (g s.numV j)
    have b2 := grid_rounded hf hnv hj
    rw [abs_sub_comm] at b2
    exact (lip ⟨ru'.lo, ru'.hi⟩ ⟨rg.lo, rg.hi⟩ ⟨rv'.lo, rv'.hi⟩ ⟨rh.lo, rh.hi⟩).trans
      (add_le_add (mul_le_mul_of_nonneg_left (by linarith) hLn) (mul_le_mul_of_nonneg_left (by linarith) hMn))
  obtain ⟨u, v, hu, hv, hd⟩ := hclose
  obtain ⟨i, hi, j, hj, hij⟩ := near u v hu hv
  have hfirst := (nearly_closest hnm one_pos le_rfl (x := x) (y := y) (z := z) (hQ i j hi hj).2 (hQ i j hi hj).2 hij
    (by rw [one_pow, one_mul])).1
  have hmin := h1 ⟨i, hi, j, hj, hfirst.trans_lt hd⟩
  rw [hgu.eq a ha, hgv.eq b hb] at h0
  refine ⟨_, _, h0, hgu.unit a ha, hgv.unit b hb, fun u v hu hv => ?_⟩
  obtain ⟨i, hi, j, hj, hij⟩ := near u v hu hv
  exact (nearly_closest hnm hA.pos hA.le_one (x := x) (y := y) (z := z) (hQ a b ha hb).2 (hQ i j hi hj).2 hij
    (hmin i hi j hj)).2

/-! ## Two norms -/

/-- **C158.** The sum of the absolute values, computed with `fl` from the left to the right, is right up to the factor
`ρ⁴`. -/
theorem measures_sum {ρ : K} {fl : K → K} (hr : Rounding fl) (hf : Accurate ρ fl) :
    (flArith fl (sumNormFl fl)).Measures (fun l => (l.map fun x => |x|).sum) (ρ ^ 4) where
  pos := pow_pos hf.pos 4
  le_one := pow_le_one₀ hf.pos.le hf.le_one
  dist x y z a b e := by
    have n1 := hf.near_abs hr (x - a)
    have n2 := hf.near_abs hr (y - b)
    have n3 := hf.near_abs hr (z - e)
    refine ⟨sumNormFl fl [fl (x - a), fl (y - b), fl (z - e)], rfl, ?_⟩
    have p0 := hf.pos
    have p1 := hf.le_one
    unfold sumNormFl
    simp only [List.foldl_cons, List.foldl_nil, zero_add, List.map_cons, List.map_nil, List.sum_cons, List.sum_nil,
      add_zero]
    have h := (((n1.fl hf).add (n2.mono p0 p1 (by norm_num))).fl hf |>.add (n3.mono p0 p1 (by norm_num))).fl hf
    rw [add_assoc |x - a|] at h
    exact ⟨(mul_comm _ _).trans_le h.2.1, (mul_comm _ _).trans_le h.2.2⟩

end

/-- **C158.** The Euclidean norm, computed as `sqrt(dot(r, r))` with the sum of the squares in any order: it is right
up to the factor `ρ⁴`. -/
theorem measures_euclid {A : Arith ℝ} {ρ : ℝ} {fl : ℝ → ℝ} (hr : Rounding fl) (hf : Accurate ρ fl)
    (hsub : ∀ x a : ℝ, A.sub (fin x) (fin a) = fin (fl (x - a)))
    (hnorm : ∀ a b c : ℝ, ∃ s, DotFl fl [(a, a), (b, b), (c, c)] s ∧ A.norm [fin a, fin b, fin c] = fin (fl (Real.sqrt s))) :
    A.Measures euclid (ρ ^ 4) where
  pos := pow_pos hf.pos 4
  le_one := pow_le_one₀ hf.pos.le hf.le_one
  dist x y z a b e := by
    have p0 := hf.pos
    have p1 := hf.le_one
    rw [hsub, hsub, hsub]
    obtain ⟨s, hs, hn⟩ := hnorm (fl (x - a)) (fl (y - b)) (fl (z - e))
    refine ⟨_, hn, ?_⟩
    have sq : ∀ t : ℝ, Near ρ 2 (fl t * fl t) (t ^ 2) := by
      intro t
      have := (hf.near_abs hr t).mul p0 (hf.near_abs hr t)
      rwa [abs_mul_abs_self, abs_mul_abs_self, ← pow_two t] at this
    have h3 := hs.near hf (by
      intro x hx
      simp only [List.mem_cons, List.not_mem_nil, or_false] at hx
      rcases hx with rfl | rfl | rfl <;> exact mul_self_nonneg _)
    have h2 := (sq (x - a)).add ((sq (y - b)).add (sq (z - e)))
    simp only [dotSum, List.map_cons, List.map_nil, List.sum_cons, List.sum_nil, add_zero, List.length_cons,
      List.length_nil] at h3
    have hroot : Near ρ 3 (Real.sqrt s) (euclid [x - a, y - b, z - e]) := by
      unfold euclid
      simp only [List.map_cons, List.map_nil, List.sum_cons, List.sum_nil, add_zero]
      set X := (x - a) ^ 2 + ((y - b) ^ 2 + (z - e) ^ 2)
      set Y := fl (x - a) * fl (x - a) + (fl (y - b) * fl (y - b) + fl (z - e) * fl (z - e))
      have hp : ρ ^ 6 = ρ ^ 3 * ρ ^ 3 := by ring
      have q : (0 : ℝ) ≤ ρ ^ 3 := by positivity
      have lo : X * ρ ^ 6 ≤ s := by
        calc X * ρ ^ 6 = X * ρ ^ 2 * ρ ^ 4 := by ring
          _ ≤ Y * ρ ^ 4 := mul_le_mul_of_nonneg_right h2.2.1 (by positivity)
          _ ≤ Y * ρ ^ 3 := mul_le_mul_of_nonneg_left (pow_le_pow_of_le_one p0.le p1 (by norm_num)) h3.1
          _ ≤ s := h3.2.1
      have hi : s * ρ ^ 6 ≤ X := by
        have s0 := h3.nonneg p0
        calc s * ρ ^ 6 ≤ s * ρ ^ 5 :=
              mul_le_mul_of_nonneg_left (pow_le_pow_of_le_one p0.le p1 (by norm_num)) s0
          _ = s * ρ ^ 3 * ρ ^ 2 := by ring
          _ ≤ Y * ρ ^ 2 := mul_le_mul_of_nonneg_right h3.2.2 (by positivity)
          _ ≤ X := h2.2.2
      refine ⟨Real.sqrt_nonneg _, ?_, ?_⟩
      · refine Real.le_sqrt_of_sq_le ?_
        rw [mul_pow, Real.sq_sqrt h2.1]
        calc X * (ρ ^ 3) ^ 2 = X * ρ ^ 6 := by ring
          _ ≤ s := lo
      · refine Real.le_sqrt_of_sq_le ?_
        rw [mul_pow, Real.sq_sqrt (h3.nonneg p0)]
        calc s * (ρ ^ 3) ^ 2 = s * ρ ^ 6 := by ring
          _ ≤ X := hi
    have h := hroot.fl hf
    exact ⟨(mul_comm _ _).trans_le h.2.1, (mul_comm _ _).trans_le h.2.2⟩

/-- **C158.** In double precision (up to overflow and underflow) the grid of `2 n` parameters is in `[0, 1]`. -/
theorem rounded_grid_double (norm : List ℚ → ℚ) {n : ℕ} (h1 : 1 ≤ n) (h2 : n ≤ 2 ^ 49) :
    (flArith fl64 norm).RoundedGrid fl64 n where
  eq k hk := rfl
  unit k hk := by
    obtain ⟨-, -, -, h, -⟩ := grid_double (N := 2 * n) (by omega) (by omega)
    exact h _ (List.mem_map.2 ⟨k, List.mem_range.2 hk, rfl⟩)

/-! ## Witnesses -/

/-- There is a curve object that computes in double precision. -/
theorem exists_double_curve : ∃ C : CurveLike (Ext ℚ), C.numCtrl = 6 ∧ ∀ u, 0 ≤ u → u ≤ 1 → ∃ pt,
    Curve.PointFl fl64 (endTestFl fl64) ⟨2, exP, exU⟩ u pt ∧ C.singlePoint (fin u) = .ok (pt.map fin) := by
  have h : ∀ u : ℚ, ∃ pt, 0 ≤ u → u ≤ 1 → Curve.PointFl fl64 (endTestFl fl64) ⟨2, exP, exU⟩ u pt := by
    intro u
    by_cases hu : 0 ≤ u ∧ u ≤ 1
    · obtain ⟨pt, hpt⟩ := (single_point_rounded rounding_fl64 accurate_fl64 endTestFl_refl exU_clamped (by decide)
        exP_shape le_rfl hu.1 hu.2 (exU_regular hu.1 hu.2) fun h => (by decide +kernel :
          knotFn exU 5 ≤ 1 - 102 / 10 ^ 8).trans (endTestFl_one hu.2 h)).1
      exact ⟨pt, fun _ _ => hpt⟩
    · exact ⟨[], fun h0 h1 => absurd ⟨h0, h1⟩ hu⟩
  choose pt hpt using h
  exact ⟨⟨6, fun u => match u with
    | fin x => .ok ((pt x).map fin)
    | _ => .error .valueError, fun _ => .error .valueError⟩, rfl, fun u h0 h1 => ⟨pt u, hpt u h0 h1, rfl⟩⟩

/-- Double precision: the exact point at the parameter returned first is at most `28/11 + 2^-30` farther away than the
curve, up to the factor `(1 - 2^-53)^8`. -/
example {C : CurveLike (Ext ℚ)} (hC : C.numCtrl = 6) (hpt : ∀ u, 0 ≤ u → u ≤ 1 → ∃ pt,
      Curve.PointFl fl64 (endTestFl fl64) ⟨2, exP, exU⟩ u pt ∧ C.singlePoint (fin u) = .ok (pt.map fin)) :
    ∃ u0, initialGuessCurveA (flArith fl64 (sumNormFl fl64)) C [fin 2, fin 3, fin 1] = .ok (fin u0) ∧ 0 ≤ u0 ∧ u0 ≤ 1 ∧
      ∀ u, 0 ≤ u → u ≤ 1 → ((1 - 1 / 2 ^ 53 : ℚ) ^ 4) ^ 2 *
        exNum.norm [2 - curve (knotFn exU) 2 6 (coord exP 0) u0, 3 - curve (knotFn exU) 2 6 (coord exP 1) u0,
          1 - curve (knotFn exU) 2 6 (coord exP 2) u0]
      ≤ exNum.norm [2 - curve (knotFn exU) 2 6 (coord exP 0) u, 3 - curve (knotFn exU) 2 6 (coord exP 1) u,
          1 - curve (knotFn exU) 2 6 (coord exP 2) u] + (28 / 11 + 1 / 2 ^ 30) := by
  obtain ⟨u0, h0, h1, h2, h3⟩ := initial_guess_curve_rounded isNorm_sum (measures_sum rounding_fl64 accurate_fl64)
    rounding_fl64 accurate_fl64 endTestFl_refl exU_clamped (by decide) exP_shape le_rfl
    (fun _ h0 h1 => exU_regular h0 h1) (fun u hu h => (by decide +kernel :
          knotFn exU 5 ≤ 1 - 102 / 10 ^ 8).trans (endTestFl_one hu h)) hC (rounded_grid_double _ (by norm_num) (by norm_num))
    hpt (x := 2) (y := 3) (z := 1) (L := fun k => if k = 0 then 8 else if k = 1 then 32 else 16)
    (M := fun k => if k = 0 then 5 else if k = 1 then 4 else 2)
    (by intro k hk i hi
        have : i < 5 := by omega
        interval_cases k <;> interval_cases i <;> decide +kernel)
    (by intro k hk i hi
        interval_cases k <;> interval_cases i <;> decide +kernel)
    ⟨0, le_rfl, zero_le_one, by decide +kernel⟩
  refine ⟨u0, h0, h1, h2, fun u hu0 hu1 => (h3 u hu0 hu1).trans ?_⟩
  rw [add_assoc]
  exact add_le_add le_rfl (by decide +kernel)

/-- The line again: double precision breaks the tie between `1/3` and `2/3` in another way.  And an arithmetic in which every difference is NaN: the search returns the
first parameter, which is not close. -/
example : initialGuessCurveA (flArith fl64 (sumNormFl fl64)) exLineE [fin (1/2), 0, 0] = .ok (fin (fl64 (2/3))) ∧
    initialGuessCurveA { flArith fl64 (sumNormFl fl64) with sub := fun _ _ => nan } exLineE [fin (1/2), 0, 0]
      = .ok (fin 0) := by decide +kernel

end PySpline
