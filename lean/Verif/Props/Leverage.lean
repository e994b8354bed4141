import Verif.Lemmas.Leverage

/-!
# C174: what single data points do to a fit
-/

set_option linter.unusedSectionVars false

namespace PySpline

open Spec Finset

variable {K : Type} [Field K] [LinearOrder K] [IsStrictOrderedRing K]

section
variable {ls ls' : ℕ → List (List K) → List K → List K} {c : Curve K} {data data' : List (List K)} {m n : ℕ}

/-- **C174.** Fitted values depend on the data through a matrix `H` that knots and parameters determine: whatever the solvers
and the inner control points before the fit, changing the data changes the fitted values by `H` times the change.  `H` is
symmetric and idempotent; a datum takes the curve at its own parameter along by the factor `H q q ∈ [0, 1]`, and at other
parameters by at most half of its own motion.  If the parameters determine the fit, the factors add up to the number of
inner control points.  The fit differs from the fit of the data without the datum `q` by column `q` times the distance of the
latter fit to the datum: at the parameter of the datum its distance is the factor `1 - H q q` of that distance. -/
theorem single_fit_curve_influence (hls : IsLstsq ls) {p : ℕ} {U : List K} (hU : Clamped p n U) (hp : 1 ≤ p)
    (hfirst : knotFn U p < knotFn U (p + 1)) {t : ℕ → K} (hdom : ∀ r < m, knotFn U p ≤ t r ∧ t r ≤ knotFn U n) :
    ∃ H : ℕ → ℕ → K, (∀ r < m, ∀ q < m, H r q = H q r) ∧ (∀ r < m, ∀ q < m, ∑ s ∈ range m, H r s * H s q = H r q) ∧
      (∀ q < m, 0 ≤ H q q ∧ H q q ≤ 1 ∧ ∀ r < m, r ≠ q → |H r q| ≤ 1 / 2) ∧
      (Determined p n (knotFn U) m t → ∑ q ∈ range m, H q q = (n : K) - 2) ∧
      (∀ (ls₁ ls₂ : ℕ → List (List K) → List K → List K), IsLstsq ls₁ → IsLstsq ls₂ → ∀ P₁ P₂ data₁ data₂ : List (List K),
        Shape P₁ n 3 → Shape P₂ n 3 → Shape data₁ m 4 → Shape data₂ m 4 →
        (∀ k < 3, coord P₂ k 0 = coord P₁ k 0 ∧ coord P₂ k (n - 1) = coord P₁ k (n - 1)) →
        (∀ r < m, at2 data₁ r 3 0 = t r ∧ at2 data₂ r 3 0 = t r) →
        ∃ c₁ c₂, singleFitCurve ls₁ ⟨p, P₁, U⟩ data₁ = .ok c₁ ∧ singleFitCurve ls₂ ⟨p, P₂, U⟩ data₂ = .ok c₂ ∧
          ∀ k < 3, ∀ r < m, curve (knotFn U) p n (coord c₂.ctrlpts k) (t r) - curve (knotFn U) p n (coord c₁.ctrlpts k) (t r)
            = ∑ q ∈ range m, H r q * (at2 data₂ q k 0 - at2 data₁ q k 0)) ∧
      ∀ (ls₁ ls₂ : ℕ → List (List K) → List K → List K), IsLstsq ls₁ → IsLstsq ls₂ → ∀ P data : List (List K),
        Shape P n 3 → Shape data m 4 → (∀ r < m, at2 data r 3 0 = t r) → ∀ q < m,
        ∃ c₁ c₂, singleFitCurve ls₁ ⟨p, P, U⟩ data = .ok c₁ ∧ singleFitCurve ls₂ ⟨p, P, U⟩ (data.eraseIdx q) = .ok c₂ ∧
          ∀ k < 3, ∀ r < m, curve (knotFn U) p n (coord c₁.ctrlpts k) (t r) - curve (knotFn U) p n (coord c₂.ctrlpts k) (t r)
            = H r q * (at2 data q k 0 - curve (knotFn U) p n (coord c₂.ctrlpts k) (t q)) := by
  have hsz := hU.size
  have hF : ∀ (x e : ℕ → K) (s : K) (r : ℕ), curve (knotFn U) p n (fun i => x i + s * e i) (t r)
      = curve (knotFn U) p n x (t r) + s * curve (knotFn U) p n e (t r) := fun x e s r => curve_add_mul x e s _
  -- the fits of unit data
  have hunit : ∀ q : ℕ, ∃ x : ℕ → K, x 0 = 0 ∧ x (n - 1) = 0 ∧ ∀ e : ℕ → K, e 0 = 0 ∧ e (n - 1) = 0 →
      ∑ r ∈ range m, (curve (knotFn U) p n x (t r) - if r = q then 1 else 0) * curve (knotFn U) p n e (t r) = 0 := by
    intro q
    set D : List (List K) := (List.range m).map fun r => [if r = q then 1 else 0, 0, 0, t r] with hD
    set P : List (List K) := List.replicate n [0, 0, 0] with hP
    have hDs : Shape D m 4 := ⟨by simp [hD], fun row hrow => by
      obtain ⟨r, -, rfl⟩ := List.mem_map.1 hrow; rfl⟩
    have hPs : Shape P n 3 := ⟨by simp [hP], fun row hrow => by rw [List.eq_of_mem_replicate hrow]; rfl⟩
    have hDr : ∀ r < m, at2 D r 3 0 = t r ∧ at2 D r 0 0 = if r = q then 1 else 0 := fun r hr => by
      unfold at2
      have : D.getD r [] = [if r = q then 1 else 0, 0, 0, t r] := by
        simp [hD, List.getD_eq_getElem?_getD, hr]
      rw [this]
      exact ⟨rfl, rfl⟩
    have hP0 : ∀ i < n, coord P 0 i = 0 := fun i hi => by
      unfold coord
      simp [hP, List.getD_eq_getElem?_getD, hi]
    obtain ⟨c', -, -, -, -, hn⟩ := single_fit_curve_normal (c := ⟨p, P, U⟩) hls hU hfirst hPs hDs
      (fun r hr => by rw [(hDr r hr).1]; exact hdom r hr)
    obtain ⟨e0, e1, he⟩ := hn 0 (by norm_num)
    refine ⟨coord c'.ctrlpts 0, by rw [e0]; exact hP0 0 (by omega), by rw [e1]; exact hP0 _ (by omega), fun e hz => ?_⟩
    refine Eq.trans (sum_congr rfl fun r hr => ?_) (he e hz.1 hz.2)
    rw [(hDr r (mem_range.1 hr)).1, (hDr r (mem_range.1 hr)).2]
  choose X X0 X1 hN using hunit
  have hXf : ∀ q < m, X q 0 = 0 ∧ X q (n - 1) = 0 := fun q _ => ⟨X0 q, X1 q⟩
  have hsym := fun {q s : ℕ} (hq : q < m) (hs : s < m) => hat_symm (m := m)
    (F := fun x r => curve (knotFn U) p n x (t r)) (free := fun e => e 0 = 0 ∧ e (n - 1) = 0) (X := X) hXf
    (fun q _ e he => hN q e he) hq hs
  have hsy : ∀ r < m, ∀ q < m, curve (knotFn U) p n (X r) (t q) = curve (knotFn U) p n (X q) (t r) :=
    fun r hr q hq => (hsym hq hr).2
  have hid : ∀ r < m, ∀ q < m, ∑ s ∈ range m, curve (knotFn U) p n (X r) (t s) * curve (knotFn U) p n (X s) (t q)
      = curve (knotFn U) p n (X r) (t q) := fun r hr q hq => by
    rw [hsy r hr q hq, ← (hsym hr hq).1]
    exact sum_congr rfl fun s hs => by rw [hsy s (mem_range.1 hs) q hq]
  have change := fun {x y d d' : ℕ → K}
      (hx : ∀ e : ℕ → K, e 0 = 0 ∧ e (n - 1) = 0 →
        ∑ r ∈ range m, (curve (knotFn U) p n x (t r) - d r) * curve (knotFn U) p n e (t r) = 0)
      (hy : ∀ e : ℕ → K, e 0 = 0 ∧ e (n - 1) = 0 →
        ∑ r ∈ range m, (curve (knotFn U) p n y (t r) - d' r) * curve (knotFn U) p n e (t r) = 0)
      (hxy : y 0 + (-1) * x 0 = 0 ∧ y (n - 1) + (-1) * x (n - 1) = 0) {s : ℕ} (hs : s < m) =>
    hat_change (F := fun x r => curve (knotFn U) p n x (t r)) (free := fun e => e 0 = 0 ∧ e (n - 1) = 0) (X := X) hF hXf
      (fun q _ e he => hN q e he) hx hy hxy hs
  refine ⟨fun r q => curve (knotFn U) p n (X r) (t q), hsy, hid, fun q hq => hat_bounds hsy hid hq, fun hdet => ?_, ?_, ?_⟩
  · have htr := hat_trace (ι := Fin (n - 2)) (m := m) (F := fun x r => curve (knotFn U) p n x (t r))
      (free := fun e => e 0 = 0 ∧ e (n - 1) = 0) (X := X) hF hXf (fun q _ e he => hN q e he)
      (fun a i => if h : 1 ≤ i ∧ i < n - 1 then a ⟨i - 1, by omega⟩ else 0)
      (fun a b s i => by
        by_cases h : 1 ≤ i ∧ i < n - 1
        · simp only [dif_pos h]
        · simp only [dif_neg h]; ring)
      (fun a => ⟨by simp, by simp⟩)
      (fun e he => ⟨fun j => e (j + 1), fun r _ => by
        dsimp only
        unfold curve
        refine sum_congr rfl fun i hi => ?_
        have hi := mem_range.1 hi
        congr 1
        dsimp only
        by_cases h : 1 ≤ i ∧ i < n - 1
        · rw [dif_pos h, show i - 1 + 1 = i by omega]
        · rw [dif_neg h]
          rcases Nat.eq_zero_or_pos i with rfl | hpos
          · exact he.1.symm
          · rw [show i = n - 1 by omega]; exact he.2.symm⟩)
      (fun a ha => by
        have := eq_zero_of_determined hU hp hdet
          (e := fun i => if h : 1 ≤ i ∧ i < n - 1 then a ⟨i - 1, by omega⟩ else 0) (by simp) (by simp) ha
        funext j
        have hj := this (j + 1) (by omega)
        rw [dif_pos ⟨by omega, by omega⟩] at hj
        simpa using hj)
    rw [htr, Fintype.card_fin, Nat.cast_sub (by omega)]
    norm_num
  · intro ls₁ ls₂ h₁ h₂ P₁ P₂ data₁ data₂ hP₁ hP₂ hd₁ hd₂ hends hpar
    obtain ⟨c₁, f₁, -, -, -, n₁⟩ := single_fit_curve_normal (c := ⟨p, P₁, U⟩) h₁ hU hfirst hP₁ hd₁
      (fun r hr => by rw [(hpar r hr).1]; exact hdom r hr)
    obtain ⟨c₂, f₂, -, -, -, n₂⟩ := single_fit_curve_normal (c := ⟨p, P₂, U⟩) h₂ hU hfirst hP₂ hd₂
      (fun r hr => by rw [(hpar r hr).2]; exact hdom r hr)
    refine ⟨c₁, c₂, f₁, f₂, fun k hk r hr => ?_⟩
    obtain ⟨a0, a1, ha⟩ := n₁ k hk
    obtain ⟨b0, b1, hb⟩ := n₂ k hk
    obtain ⟨e0, e1⟩ := hends k hk
    dsimp only at a0 a1 ha b0 b1 hb
    exact change (d := fun r => at2 data₁ r k 0) (d' := fun r => at2 data₂ r k 0)
      (fun e he => Eq.trans (sum_congr rfl fun r hr => by rw [(hpar r (mem_range.1 hr)).1]) (ha e he.1 he.2))
      (fun e he => Eq.trans (sum_congr rfl fun r hr => by rw [(hpar r (mem_range.1 hr)).2]) (hb e he.1 he.2))
      ⟨by rw [b0, a0, e0]; ring, by rw [b1, a1, e1]; ring⟩ hr
  · intro ls₁ ls₂ h₁ h₂ P data hP hd hpar q hq
    have hmem : ∀ row ∈ data, row.length = 4 ∧ knotFn U p ≤ row.getD 3 0 ∧ row.getD 3 0 ≤ knotFn U n := fun row hrow => by
      obtain ⟨r, hr, rfl⟩ := exists_getD_of_mem hrow
      rw [hd.1] at hr
      have := hdom r hr
      rw [← hpar r hr] at this
      exact ⟨hd.2 _ hrow, this⟩
    have hd' : Shape (data.eraseIdx q) (m - 1) 4 := ⟨by rw [List.length_eraseIdx_of_lt (by rw [hd.1]; exact hq), hd.1],
      fun row hrow => (hmem row (List.mem_of_mem_eraseIdx hrow)).1⟩
    obtain ⟨c₁, f₁, -, -, -, n₁⟩ := single_fit_curve_normal (c := ⟨p, P, U⟩) h₁ hU hfirst hP hd
      (fun r hr => by rw [hpar r hr]; exact hdom r hr)
    obtain ⟨c₂, f₂, -, -, -, n₂⟩ := single_fit_curve_normal (c := ⟨p, P, U⟩) h₂ hU hfirst hP hd'
      (fun r hr => (hmem _ (List.mem_of_mem_eraseIdx (getD_mem_of_lt (by rw [hd'.1]; exact hr)))).2)
    refine ⟨c₁, c₂, f₁, f₂, fun k hk r hr => ?_⟩
    obtain ⟨a0, a1, ha⟩ := n₁ k hk
    obtain ⟨b0, b1, hb⟩ := n₂ k hk
    dsimp only at a0 a1 ha b0 b1 hb
    refine hat_deleted (F := fun x r => curve (knotFn U) p n x (t r)) (free := fun e => e 0 = 0 ∧ e (n - 1) = 0)
      (X := X) (d := fun r => at2 data r k 0) hF hXf (fun q _ e he => hN q e he) hq
      (fun e he => Eq.trans (sum_congr rfl fun r hr => by rw [hpar r (mem_range.1 hr)]) (ha e he.1 he.2))
      (fun e he => ?_) ⟨by dsimp only; rw [b0, a0]; ring, by dsimp only; rw [b1, a1]; ring⟩ hr
    refine Eq.trans (sum_congr rfl fun r hr => ?_) ((sum_range_eraseIdx (f := fun row =>
      (curve (knotFn U) p n (coord c₂.ctrlpts k) (row.getD 3 0) - row.getD k 0) * curve (knotFn U) p n e (row.getD 3 0))
      hd.1 hq).symm.trans (hb e he.1 he.2))
    rw [← hpar r (mem_range.1 (mem_of_mem_erase hr))]
    rfl

/-- **C174.** A curve fit depends on the data only through the number of data at each parameter and their centroid: if at
every parameter `data'` has `w` times as many points as `data` and `w` times the sum of their coordinates, for example
because all data are repeated or the points at one parameter are replaced by copies of their mean, the fitted values are the
same, and if the fit is determined the control points are. -/
theorem single_fit_curve_centroids (hls : IsLstsq ls) (hls' : IsLstsq ls') (hU : Clamped c.degree n c.kv)
    (hp : 1 ≤ c.degree) (hfirst : knotFn c.kv c.degree < knotFn c.kv (c.degree + 1)) (hP : Shape c.ctrlpts n 3)
    (hd : ∀ row ∈ data, row.length = 4) (hd' : ∀ row ∈ data', row.length = 4)
    (hdom : ∀ row ∈ data ++ data', knotFn c.kv c.degree ≤ row.getD 3 0 ∧ row.getD 3 0 ≤ knotFn c.kv n) {w : K} (hw : 0 < w)
    (hcount : ∀ t, ((data'.filter fun row => row.getD 3 0 = t).length : K)
      = w * (data.filter fun row => row.getD 3 0 = t).length)
    (hsum : ∀ k < 3, ∀ t, ((data'.filter fun row => row.getD 3 0 = t).map fun row => row.getD k 0).sum
      = w * ((data.filter fun row => row.getD 3 0 = t).map fun row => row.getD k 0).sum) :
    ∃ c₁ c₂, singleFitCurve ls c data = .ok c₁ ∧ singleFitCurve ls' c data' = .ok c₂ ∧ ∀ k < 3,
      (∀ row ∈ data ++ data', curve (knotFn c.kv) c.degree n (coord c₁.ctrlpts k) (row.getD 3 0)
        = curve (knotFn c.kv) c.degree n (coord c₂.ctrlpts k) (row.getD 3 0)) ∧
      (Determined c.degree n (knotFn c.kv) data.length (fun r => at2 data r 3 0) →
        ∀ i < n, coord c₁.ctrlpts k i = coord c₂.ctrlpts k i) := by
  obtain ⟨c₁, f₁, -, -, -, n₁⟩ := single_fit_curve_normal (data := data) (m := data.length) hls hU hfirst hP ⟨rfl, hd⟩
    (fun r hr => hdom _ (List.mem_append_left _ (getD_mem_of_lt hr)))
  obtain ⟨c₂, f₂, -, -, -, n₂⟩ := single_fit_curve_normal (data := data') (m := data'.length) hls' hU hfirst hP ⟨rfl, hd'⟩
    (fun r hr => hdom _ (List.mem_append_right _ (getD_mem_of_lt hr)))
  refine ⟨c₁, c₂, f₁, f₂, fun k hk => ?_⟩
  obtain ⟨a0, a1, ha⟩ := n₁ k hk
  obtain ⟨b0, b1, hb⟩ := n₂ k hk
  -- the second curve solves the normal equations of the first data
  have hb' : ∀ e : ℕ → K, e 0 = 0 → e (n - 1) = 0 → ∑ r ∈ range data.length,
      (curve (knotFn c.kv) c.degree n (coord c₂.ctrlpts k) (at2 data r 3 0) - at2 data r k 0)
        * curve (knotFn c.kv) c.degree n e (at2 data r 3 0) = 0 := by
    intro e e0 e1
    have h := hb e e0 e1
    have s1 := sum_getD_map data' rfl fun row => (curve (knotFn c.kv) c.degree n (coord c₂.ctrlpts k) (row.getD 3 0)
      - row.getD k 0) * curve (knotFn c.kv) c.degree n e (row.getD 3 0)
    have s2 := sum_getD_map data rfl fun row => (curve (knotFn c.kv) c.degree n (coord c₂.ctrlpts k) (row.getD 3 0)
      - row.getD k 0) * curve (knotFn c.kv) c.degree n e (row.getD 3 0)
    refine s2.trans (normal_of_parameter_sums (fun row : List K => row.getD 3 0) (fun row => row.getD k 0) (l := data')
      (w := w⁻¹) (fun t => ?_) (fun t => ?_) (fun t => curve (knotFn c.kv) c.degree n (coord c₂.ctrlpts k) t)
      (fun t => curve (knotFn c.kv) c.degree n e t) (s1.symm.trans h))
    · rw [hcount t, inv_mul_cancel_left₀ hw.ne']
    · rw [hsum k hk t, inv_mul_cancel_left₀ hw.ne']
  have hval := normal_values (F := fun x r => curve (knotFn c.kv) c.degree n x (at2 data r 3 0))
    (free := fun e => e 0 = 0 ∧ e (n - 1) = 0) (d := fun r => at2 data r k 0) (fun x e s r => curve_add_mul x e s _)
    (fun e he => ha e he.1 he.2) (fun e he => hb' e he.1 he.2)
    ⟨by dsimp only; rw [a0, b0]; ring, by dsimp only; rw [a1, b1]; ring⟩
  refine ⟨fun row hrow => ?_, fun hdet i hi => ?_⟩
  · obtain ⟨row', hrow', heq⟩ : ∃ row' ∈ data, row'.getD 3 0 = row.getD 3 0 := by
      rcases List.mem_append.1 hrow with h | h
      · exact ⟨row, h, rfl⟩
      · have hpos : 0 < (data'.filter fun r => r.getD 3 0 = row.getD 3 0).length :=
          List.length_pos_of_mem (List.mem_filter.2 ⟨h, by simp⟩)
        have hc := hcount (row.getD 3 0)
        have : (data.filter fun r => r.getD 3 0 = row.getD 3 0) ≠ [] := by
          intro h0
          rw [h0, List.length_nil, Nat.cast_zero, mul_zero] at hc
          have : (0 : K) < ((data'.filter fun r => r.getD 3 0 = row.getD 3 0).length : K) := by exact_mod_cast hpos
          rw [hc] at this
          exact lt_irrefl _ this
        obtain ⟨row', h'⟩ := List.exists_mem_of_ne_nil _ this
        rw [List.mem_filter] at h'
        exact ⟨row', h'.1, by simpa using h'.2⟩
    obtain ⟨r, hr, rfl⟩ := exists_getD_of_mem hrow'
    rw [← heq]
    exact hval r hr
  · exact normal_unique hU hp hdet (d := fun r => at2 data r k 0) (by rw [a0, b0]) (by rw [a1, b1]) hb' ha i hi

/-- **C174.** Data that lie on the fitted curve do not change it: if `extra` are points of the curve that
`single_fit_curve` returns for `data`, at the parameters of their rows, then the fit of all together has the same values at
all parameters, and the same control points if all together determine the fit. -/
theorem single_fit_curve_extra (hls : IsLstsq ls) (hls' : IsLstsq ls') (hU : Clamped c.degree n c.kv)
    (hp : 1 ≤ c.degree) (hfirst : knotFn c.kv c.degree < knotFn c.kv (c.degree + 1)) (hP : Shape c.ctrlpts n 3)
    {extra : List (List K)} (hd : ∀ row ∈ data ++ extra, row.length = 4)
    (hdom : ∀ row ∈ data ++ extra, knotFn c.kv c.degree ≤ row.getD 3 0 ∧ row.getD 3 0 ≤ knotFn c.kv n) :
    ∃ c₁ c₂, singleFitCurve ls c data = .ok c₁ ∧ singleFitCurve ls' c (data ++ extra) = .ok c₂ ∧ ∀ k < 3,
      (∀ row ∈ extra, row.getD k 0 = curve (knotFn c.kv) c.degree n (coord c₁.ctrlpts k) (row.getD 3 0)) →
      (∀ row ∈ data ++ extra, curve (knotFn c.kv) c.degree n (coord c₂.ctrlpts k) (row.getD 3 0)
        = curve (knotFn c.kv) c.degree n (coord c₁.ctrlpts k) (row.getD 3 0)) ∧
      (Determined c.degree n (knotFn c.kv) (data ++ extra).length (fun r => at2 (data ++ extra) r 3 0) →
        ∀ i < n, coord c₂.ctrlpts k i = coord c₁.ctrlpts k i) := by
  obtain ⟨c₁, f₁, -, -, -, n₁⟩ := single_fit_curve_normal (data := data) (m := data.length) hls hU hfirst hP
    ⟨rfl, fun row h => hd row (List.mem_append_left _ h)⟩
    (fun r hr => hdom _ (List.mem_append_left _ (getD_mem_of_lt hr)))
  obtain ⟨c₂, f₂, -, -, -, n₂⟩ := single_fit_curve_normal (data := data ++ extra) (m := (data ++ extra).length) hls' hU
    hfirst hP ⟨rfl, hd⟩ (fun r hr => hdom _ (getD_mem_of_lt hr))
  refine ⟨c₁, c₂, f₁, f₂, fun k hk hex => ?_⟩
  obtain ⟨a0, a1, ha⟩ := n₁ k hk
  obtain ⟨b0, b1, hb⟩ := n₂ k hk
  have ha' : ∀ e : ℕ → K, e 0 = 0 → e (n - 1) = 0 → ∑ r ∈ range (data ++ extra).length,
      (curve (knotFn c.kv) c.degree n (coord c₁.ctrlpts k) (at2 (data ++ extra) r 3 0) - at2 (data ++ extra) r k 0)
        * curve (knotFn c.kv) c.degree n e (at2 (data ++ extra) r 3 0) = 0 := by
    intro e e0 e1
    have s1 := sum_getD_map data rfl fun row => (curve (knotFn c.kv) c.degree n (coord c₁.ctrlpts k) (row.getD 3 0)
      - row.getD k 0) * curve (knotFn c.kv) c.degree n e (row.getD 3 0)
    have s2 := sum_getD_map (data ++ extra) rfl fun row => (curve (knotFn c.kv) c.degree n (coord c₁.ctrlpts k)
      (row.getD 3 0) - row.getD k 0) * curve (knotFn c.kv) c.degree n e (row.getD 3 0)
    refine s2.trans ?_
    rw [List.map_append, List.sum_append, s1.symm.trans (ha e e0 e1), zero_add]
    refine List.sum_eq_zero fun x hx => ?_
    obtain ⟨row, hrow, rfl⟩ := List.mem_map.1 hx
    rw [hex row hrow]
    ring
  have hval := normal_values (F := fun x r => curve (knotFn c.kv) c.degree n x (at2 (data ++ extra) r 3 0))
    (free := fun e => e 0 = 0 ∧ e (n - 1) = 0) (d := fun r => at2 (data ++ extra) r k 0)
    (fun x e s r => curve_add_mul x e s _) (fun e he => hb e he.1 he.2) (fun e he => ha' e he.1 he.2)
    ⟨by dsimp only; rw [a0, b0]; ring, by dsimp only; rw [a1, b1]; ring⟩
  refine ⟨fun row hrow => ?_, fun hdet i hi => ?_⟩
  · obtain ⟨r, hr, rfl⟩ := exists_getD_of_mem hrow
    exact hval r hr
  · exact normal_unique hU hp hdet (d := fun r => at2 (data ++ extra) r k 0) (by rw [a0, b0]) (by rw [a1, b1]) ha' hb i hi

end

section
variable {ls ls' : ℕ → List (List K) → List K → List K} {s : Surface K} {data data' : List (List K)} {m : ℕ}

local notation "srf" => surface (knotFn s.kvU) s.degreeU s.numU (knotFn s.kvV) s.degreeV s.numV

/-- **C174.** The same for surface fits: the factors `H q q` add up to the number of inner control points. -/
theorem single_fit_surface_influence (hls : IsLstsq ls) (hs : ClampedSurface s)
    (fu : knotFn s.kvU s.degreeU < knotFn s.kvU (s.degreeU + 1))
    (fv : knotFn s.kvV s.degreeV < knotFn s.kvV (s.degreeV + 1)) {u v : ℕ → K}
    (hu : ∀ r < m, knotFn s.kvU s.degreeU ≤ u r ∧ u r ≤ knotFn s.kvU s.numU)
    (hv : ∀ r < m, knotFn s.kvV s.degreeV ≤ v r ∧ v r ≤ knotFn s.kvV s.numV) :
    ∃ H : ℕ → ℕ → K, (∀ r < m, ∀ q < m, H r q = H q r) ∧ (∀ r < m, ∀ q < m, ∑ s ∈ range m, H r s * H s q = H r q) ∧
      (∀ q < m, 0 ≤ H q q ∧ H q q ≤ 1 ∧ ∀ r < m, r ≠ q → |H r q| ≤ 1 / 2) ∧
      (GridDetermined s m u v → ∑ q ∈ range m, H q q = ((s.numU : K) - 2) * ((s.numV : K) - 2)) ∧
      (∀ (ls₁ ls₂ : ℕ → List (List K) → List K → List K), IsLstsq ls₁ → IsLstsq ls₂ → ∀ P₁ P₂ data₁ data₂ : List (List K),
        Shape P₁ (s.numU * s.numV) 3 → Shape P₂ (s.numU * s.numV) 3 → Shape data₁ m 5 → Shape data₂ m 5 →
        (∀ k < 3, ∀ i < s.numU, ∀ j < s.numV, OnBoundary s i j →
          coord P₂ k (i * s.numV + j) = coord P₁ k (i * s.numV + j)) →
        (∀ r < m, (at2 data₁ r 3 0 = u r ∧ at2 data₁ r 4 0 = v r) ∧ at2 data₂ r 3 0 = u r ∧ at2 data₂ r 4 0 = v r) →
        ∃ Z₁ Z₂, singleFitSurface ls₁ { s with ctrlpts := P₁ } data₁ = .ok { s with ctrlpts := Z₁ } ∧
          singleFitSurface ls₂ { s with ctrlpts := P₂ } data₂ = .ok { s with ctrlpts := Z₂ } ∧
          ∀ k < 3, ∀ r < m, srf (coord Z₂ k) (u r) (v r) - srf (coord Z₁ k) (u r) (v r)
            = ∑ q ∈ range m, H r q * (at2 data₂ q k 0 - at2 data₁ q k 0)) ∧
      ∀ (ls₁ ls₂ : ℕ → List (List K) → List K → List K), IsLstsq ls₁ → IsLstsq ls₂ → ∀ P data : List (List K),
        Shape P (s.numU * s.numV) 3 → Shape data m 5 → (∀ r < m, at2 data r 3 0 = u r ∧ at2 data r 4 0 = v r) → ∀ q < m,
        ∃ Z₁ Z₂, singleFitSurface ls₁ { s with ctrlpts := P } data = .ok { s with ctrlpts := Z₁ } ∧
          singleFitSurface ls₂ { s with ctrlpts := P } (data.eraseIdx q) = .ok { s with ctrlpts := Z₂ } ∧
          ∀ k < 3, ∀ r < m, srf (coord Z₁ k) (u r) (v r) - srf (coord Z₂ k) (u r) (v r)
            = H r q * (at2 data q k 0 - srf (coord Z₂ k) (u q) (v q)) := by
  have su := hs.cu.size
  have sv := hs.cv.size
  have hdu := hs.du
  have hdv := hs.dv
  have hcl : ∀ {P : List (List K)}, Shape P (s.numU * s.numV) 3 → ClampedSurface { s with ctrlpts := P } :=
    fun h => ⟨hs.cu, hs.cv, hs.du, hs.dv, h⟩
  have hF : ∀ (x e : ℕ → K) (a : K) (r : ℕ), srf (fun i => x i + a * e i) (u r) (v r)
      = srf x (u r) (v r) + a * srf e (u r) (v r) := fun x e a r => surface_add_mul x e a _ _
  have hunit : ∀ q : ℕ, ∃ x : ℕ → K, (∀ i < s.numU, ∀ j < s.numV, OnBoundary s i j → x (i * s.numV + j) = 0) ∧
      ∀ e : ℕ → K, (∀ i < s.numU, ∀ j < s.numV, OnBoundary s i j → e (i * s.numV + j) = 0) →
        ∑ r ∈ range m, (srf x (u r) (v r) - if r = q then 1 else 0) * srf e (u r) (v r) = 0 := by
    intro q
    set D : List (List K) := (List.range m).map fun r => [if r = q then 1 else 0, 0, 0, u r, v r] with hD
    set P : List (List K) := List.replicate (s.numU * s.numV) [0, 0, 0] with hP
    have hDs : Shape D m 5 := ⟨by simp [hD], fun row hrow => by
      obtain ⟨r, -, rfl⟩ := List.mem_map.1 hrow; rfl⟩
    have hPs : Shape P (s.numU * s.numV) 3 :=
      ⟨by simp [hP], fun row hrow => by rw [List.eq_of_mem_replicate hrow]; rfl⟩
    have hDr : ∀ r < m, at2 D r 3 0 = u r ∧ at2 D r 4 0 = v r ∧ at2 D r 0 0 = if r = q then 1 else 0 := fun r hr => by
      unfold at2
      have : D.getD r [] = [if r = q then 1 else 0, 0, 0, u r, v r] := by
        simp [hD, List.getD_eq_getElem?_getD, hr]
      rw [this]
      exact ⟨rfl, rfl, rfl⟩
    obtain ⟨Z, -, -, hn⟩ := single_fit_surface_normal (s := { s with ctrlpts := P }) hls (hcl hPs) fu fv hDs
      (fun r hr => by rw [(hDr r hr).1]; exact hu r hr) (fun r hr => by rw [(hDr r hr).2.1]; exact hv r hr)
    obtain ⟨h0, he⟩ := hn 0 (by norm_num)
    refine ⟨coord Z 0, fun i hi j hj hb => ?_, fun e hz => ?_⟩
    · rw [h0 i hi j hj hb]
      have : i * s.numV + j < s.numU * s.numV := by nlinarith [Nat.mul_le_mul_right s.numV (show i + 1 ≤ s.numU from hi)]
      unfold coord
      simp [hP, List.getD_eq_getElem?_getD, this]
    · refine Eq.trans (sum_congr rfl fun r hr => ?_) (he e hz)
      rw [(hDr r (mem_range.1 hr)).1, (hDr r (mem_range.1 hr)).2.1, (hDr r (mem_range.1 hr)).2.2]
  choose X X0 hN using hunit
  have hXf : ∀ q < m, ∀ i < s.numU, ∀ j < s.numV, OnBoundary s i j → X q (i * s.numV + j) = 0 := fun q _ => X0 q
  have hsym := fun {q w : ℕ} (hq : q < m) (hw : w < m) => hat_symm (m := m) (F := fun x r => srf x (u r) (v r))
    (free := fun e => ∀ i < s.numU, ∀ j < s.numV, OnBoundary s i j → e (i * s.numV + j) = 0) (X := X) hXf
    (fun q _ e he => hN q e he) hq hw
  have hsy : ∀ r < m, ∀ q < m, srf (X r) (u q) (v q) = srf (X q) (u r) (v r) := fun r hr q hq => (hsym hq hr).2
  have hid : ∀ r < m, ∀ q < m, ∑ w ∈ range m, srf (X r) (u w) (v w) * srf (X w) (u q) (v q)
      = srf (X r) (u q) (v q) := fun r hr q hq => by
    rw [hsy r hr q hq, ← (hsym hr hq).1]
    exact sum_congr rfl fun w hw => by rw [hsy w (mem_range.1 hw) q hq]
  refine ⟨fun r q => srf (X r) (u q) (v q), hsy, hid, fun q hq => hat_bounds hsy hid hq, fun hdet => ?_, ?_, ?_⟩
  · have hdm : ∀ i j, j < s.numV → (i * s.numV + j) / s.numV = i ∧ (i * s.numV + j) % s.numV = j := fun i j hj => by
      constructor
      · rw [mul_comm, Nat.mul_add_div (by omega), Nat.div_eq_of_lt hj, add_zero]
      · rw [mul_comm, Nat.mul_add_mod, Nat.mod_eq_of_lt hj]
    have hE : ∀ (a : Fin (s.numU - 2) × Fin (s.numV - 2) → K) i j, j < s.numV → OnBoundary s i j →
        (fun i => if h : (1 ≤ i / s.numV ∧ i / s.numV < s.numU - 1) ∧ 1 ≤ i % s.numV ∧ i % s.numV < s.numV - 1 then
          a (⟨i / s.numV - 1, by omega⟩, ⟨i % s.numV - 1, by omega⟩) else 0) (i * s.numV + j) = 0 := by
      intro a i j hj hb
      dsimp only
      rw [dif_neg]
      rw [(hdm i j hj).1, (hdm i j hj).2]
      unfold OnBoundary at hb
      omega
    have htr := hat_trace (ι := Fin (s.numU - 2) × Fin (s.numV - 2)) (m := m) (F := fun x r => srf x (u r) (v r))
      (free := fun e => ∀ i < s.numU, ∀ j < s.numV, OnBoundary s i j → e (i * s.numV + j) = 0) (X := X) hF hXf
      (fun q _ e he => hN q e he)
      (fun a i => if h : (1 ≤ i / s.numV ∧ i / s.numV < s.numU - 1) ∧ 1 ≤ i % s.numV ∧ i % s.numV < s.numV - 1 then
        a (⟨i / s.numV - 1, by omega⟩, ⟨i % s.numV - 1, by omega⟩) else 0)
      (fun a b w i => by
        by_cases h : (1 ≤ i / s.numV ∧ i / s.numV < s.numU - 1) ∧ 1 ≤ i % s.numV ∧ i % s.numV < s.numV - 1
        · simp only [dif_pos h]
        · simp only [dif_neg h]; ring)
      (fun a i _ j hj hb => hE a i j hj hb)
      (fun e he => ⟨fun ij => e ((ij.1 + 1) * s.numV + (ij.2 + 1)), fun r _ => by
        dsimp only
        unfold surface
        refine sum_congr rfl fun i hi => sum_congr rfl fun j hj => ?_
        have hi := mem_range.1 hi
        have hj := mem_range.1 hj
        obtain ⟨d1, d2⟩ := hdm i j hj
        refine congrArg (· * _) (congrArg (· * _) ?_)
        by_cases hb : OnBoundary s i j
        · refine Eq.trans ?_ (he i hi j hj hb).symm
          exact hE (fun ij => e ((ij.1 + 1) * s.numV + (ij.2 + 1))) i j hj hb
        · dsimp only
          unfold OnBoundary at hb
          rw [dif_pos (by rw [d1, d2]; omega), d1, d2, show i - 1 + 1 = i by omega, show j - 1 + 1 = j by omega]⟩)
      (fun a ha => by
        have := surface_eq_zero_of_determined hs hdet
          (e := fun i => if h : (1 ≤ i / s.numV ∧ i / s.numV < s.numU - 1) ∧ 1 ≤ i % s.numV ∧ i % s.numV < s.numV - 1 then
            a (⟨i / s.numV - 1, by omega⟩, ⟨i % s.numV - 1, by omega⟩) else 0) (fun i _ j hj hb => hE a i j hj hb) ha
        funext ⟨i, j⟩
        have hij := this (i + 1) (by omega) (j + 1) (by omega)
        obtain ⟨d1, d2⟩ := hdm (i + 1) (j + 1) (by omega)
        rw [dif_pos (by rw [d1, d2]; omega)] at hij
        simp only [d1, d2, Nat.add_sub_cancel, Fin.eta] at hij
        exact hij)
    rw [htr, Fintype.card_prod, Fintype.card_fin, Fintype.card_fin, Nat.cast_mul, Nat.cast_sub (by omega),
      Nat.cast_sub (by omega)]
    norm_num
  · intro ls₁ ls₂ h₁ h₂ P₁ P₂ data₁ data₂ hP₁ hP₂ hd₁ hd₂ hbd hpar
    obtain ⟨Z₁, f₁, -, n₁⟩ := single_fit_surface_normal (s := { s with ctrlpts := P₁ }) h₁ (hcl hP₁) fu fv hd₁
      (fun r hr => by rw [(hpar r hr).1.1]; exact hu r hr) (fun r hr => by rw [(hpar r hr).1.2]; exact hv r hr)
    obtain ⟨Z₂, f₂, -, n₂⟩ := single_fit_surface_normal (s := { s with ctrlpts := P₂ }) h₂ (hcl hP₂) fu fv hd₂
      (fun r hr => by rw [(hpar r hr).2.1]; exact hu r hr) (fun r hr => by rw [(hpar r hr).2.2]; exact hv r hr)
    refine ⟨Z₁, Z₂, f₁, f₂, fun k hk r hr => ?_⟩
    obtain ⟨a0, ha⟩ := n₁ k hk
    obtain ⟨b0, hb⟩ := n₂ k hk
    dsimp only at a0 ha b0 hb
    refine hat_change (F := fun x r => srf x (u r) (v r))
      (free := fun e => ∀ i < s.numU, ∀ j < s.numV, OnBoundary s i j → e (i * s.numV + j) = 0) (X := X) hF hXf
      (fun q _ e he => hN q e he) (d := fun r => at2 data₁ r k 0) (d' := fun r => at2 data₂ r k 0)
      (fun e he => Eq.trans (sum_congr rfl fun r hr => ?_) (ha e he))
      (fun e he => Eq.trans (sum_congr rfl fun r hr => ?_) (hb e he)) (fun i hi j hj h => ?_) hr
    · rw [(hpar r (mem_range.1 hr)).1.1, (hpar r (mem_range.1 hr)).1.2]
    · rw [(hpar r (mem_range.1 hr)).2.1, (hpar r (mem_range.1 hr)).2.2]
    · dsimp only
      rw [b0 i hi j hj h, a0 i hi j hj h, hbd k hk i hi j hj h]
      ring
  · intro ls₁ ls₂ h₁ h₂ P data hP hd hpar q hq
    have hmem : ∀ row ∈ data, (knotFn s.kvU s.degreeU ≤ row.getD 3 0 ∧ row.getD 3 0 ≤ knotFn s.kvU s.numU) ∧
        knotFn s.kvV s.degreeV ≤ row.getD 4 0 ∧ row.getD 4 0 ≤ knotFn s.kvV s.numV := fun row hrow => by
      obtain ⟨r, hr, rfl⟩ := exists_getD_of_mem hrow
      rw [hd.1] at hr
      have h1 := hu r hr
      have h2 := hv r hr
      rw [← (hpar r hr).1] at h1
      rw [← (hpar r hr).2] at h2
      exact ⟨h1, h2⟩
    have hd' : Shape (data.eraseIdx q) (m - 1) 5 := ⟨by rw [List.length_eraseIdx_of_lt (by rw [hd.1]; exact hq), hd.1],
      fun row hrow => hd.2 row (List.mem_of_mem_eraseIdx hrow)⟩
    have hmem' : ∀ r < m - 1, (data.eraseIdx q).getD r [] ∈ data := fun r hr =>
      List.mem_of_mem_eraseIdx (getD_mem_of_lt (by rw [hd'.1]; exact hr))
    obtain ⟨Z₁, f₁, -, n₁⟩ := single_fit_surface_normal (s := { s with ctrlpts := P }) h₁ (hcl hP) fu fv hd
      (fun r hr => by rw [(hpar r hr).1]; exact hu r hr) (fun r hr => by rw [(hpar r hr).2]; exact hv r hr)
    obtain ⟨Z₂, f₂, -, n₂⟩ := single_fit_surface_normal (s := { s with ctrlpts := P }) h₂ (hcl hP) fu fv hd'
      (fun r hr => (hmem _ (hmem' r hr)).1) (fun r hr => (hmem _ (hmem' r hr)).2)
    refine ⟨Z₁, Z₂, f₁, f₂, fun k hk r hr => ?_⟩
    obtain ⟨a0, ha⟩ := n₁ k hk
    obtain ⟨b0, hb⟩ := n₂ k hk
    dsimp only at a0 ha b0 hb
    refine hat_deleted (F := fun x r => srf x (u r) (v r))
      (free := fun e => ∀ i < s.numU, ∀ j < s.numV, OnBoundary s i j → e (i * s.numV + j) = 0)
      (X := X) (d := fun r => at2 data r k 0) hF hXf (fun q _ e he => hN q e he) hq
      (fun e he => Eq.trans (sum_congr rfl fun r hr => ?_) (ha e he)) (fun e he => ?_) (fun i hi j hj h => ?_) hr
    · rw [(hpar r (mem_range.1 hr)).1, (hpar r (mem_range.1 hr)).2]
    · refine Eq.trans (sum_congr rfl fun r hr => ?_) ((sum_range_eraseIdx (f := fun row =>
        (srf (coord Z₂ k) (row.getD 3 0) (row.getD 4 0) - row.getD k 0) * srf e (row.getD 3 0) (row.getD 4 0))
        hd.1 hq).symm.trans (hb e he))
      have hr := mem_range.1 (mem_of_mem_erase hr)
      rw [← (hpar r hr).1, ← (hpar r hr).2]
      rfl
    · dsimp only
      rw [b0 i hi j hj h, a0 i hi j hj h]
      ring

/-- **C174.** A surface fit depends on the data only through the number of data at each pair of parameters and their
centroid. -/
theorem single_fit_surface_centroids (hls : IsLstsq ls) (hls' : IsLstsq ls') (hs : ClampedSurface s)
    (fu : knotFn s.kvU s.degreeU < knotFn s.kvU (s.degreeU + 1))
    (fv : knotFn s.kvV s.degreeV < knotFn s.kvV (s.degreeV + 1)) (hd : ∀ row ∈ data ++ data', row.length = 5)
    (hu : ∀ row ∈ data ++ data', knotFn s.kvU s.degreeU ≤ row.getD 3 0 ∧ row.getD 3 0 ≤ knotFn s.kvU s.numU)
    (hv : ∀ row ∈ data ++ data', knotFn s.kvV s.degreeV ≤ row.getD 4 0 ∧ row.getD 4 0 ≤ knotFn s.kvV s.numV) {w : K}
    (hw : 0 < w)
    (hcount : ∀ t : K × K, ((data'.filter fun row => (row.getD 3 0, row.getD 4 0) = t).length : K)
      = w * (data.filter fun row => (row.getD 3 0, row.getD 4 0) = t).length)
    (hsum : ∀ k < 3, ∀ t : K × K, ((data'.filter fun row => (row.getD 3 0, row.getD 4 0) = t).map fun row => row.getD k 0).sum
      = w * ((data.filter fun row => (row.getD 3 0, row.getD 4 0) = t).map fun row => row.getD k 0).sum) :
    ∃ Z₁ Z₂, singleFitSurface ls s data = .ok { s with ctrlpts := Z₁ } ∧
      singleFitSurface ls' s data' = .ok { s with ctrlpts := Z₂ } ∧ ∀ k < 3,
      (∀ row ∈ data ++ data', srf (coord Z₁ k) (row.getD 3 0) (row.getD 4 0)
        = srf (coord Z₂ k) (row.getD 3 0) (row.getD 4 0)) ∧
      (GridDetermined s data.length (fun r => at2 data r 3 0) (fun r => at2 data r 4 0) →
        ∀ i < s.numU, ∀ j < s.numV, coord Z₁ k (i * s.numV + j) = coord Z₂ k (i * s.numV + j)) := by
  obtain ⟨Z₁, f₁, -, n₁⟩ := single_fit_surface_normal (data := data) (m := data.length) hls hs fu fv
    ⟨rfl, fun row h => hd row (List.mem_append_left _ h)⟩
    (fun r hr => hu _ (List.mem_append_left _ (getD_mem_of_lt hr)))
    (fun r hr => hv _ (List.mem_append_left _ (getD_mem_of_lt hr)))
  obtain ⟨Z₂, f₂, -, n₂⟩ := single_fit_surface_normal (data := data') (m := data'.length) hls' hs fu fv
    ⟨rfl, fun row h => hd row (List.mem_append_right _ h)⟩
    (fun r hr => hu _ (List.mem_append_right _ (getD_mem_of_lt hr)))
    (fun r hr => hv _ (List.mem_append_right _ (getD_mem_of_lt hr)))
  refine ⟨Z₁, Z₂, f₁, f₂, fun k hk => ?_⟩
  obtain ⟨a0, ha⟩ := n₁ k hk
  obtain ⟨b0, hb⟩ := n₂ k hk
  have hb' : ∀ e : ℕ → K, (∀ i < s.numU, ∀ j < s.numV, OnBoundary s i j → e (i * s.numV + j) = 0) →
      ∑ r ∈ range data.length, (srf (coord Z₂ k) (at2 data r 3 0) (at2 data r 4 0) - at2 data r k 0)
        * srf e (at2 data r 3 0) (at2 data r 4 0) = 0 := by
    intro e he
    have h := hb e he
    have s1 := sum_getD_map data' rfl fun row => (srf (coord Z₂ k) (row.getD 3 0) (row.getD 4 0)
      - row.getD k 0) * srf e (row.getD 3 0) (row.getD 4 0)
    have s2 := sum_getD_map data rfl fun row => (srf (coord Z₂ k) (row.getD 3 0) (row.getD 4 0)
      - row.getD k 0) * srf e (row.getD 3 0) (row.getD 4 0)
    refine s2.trans (normal_of_parameter_sums (fun row : List K => (row.getD 3 0, row.getD 4 0))
      (fun row => row.getD k 0) (l := data') (w := w⁻¹) (fun t => ?_) (fun t => ?_) (fun t => srf (coord Z₂ k) t.1 t.2)
      (fun t => srf e t.1 t.2) (s1.symm.trans h))
    · rw [hcount t, inv_mul_cancel_left₀ hw.ne']
    · rw [hsum k hk t, inv_mul_cancel_left₀ hw.ne']
  have hval := normal_values (F := fun x r => srf x (at2 data r 3 0) (at2 data r 4 0))
    (free := fun e => ∀ i < s.numU, ∀ j < s.numV, OnBoundary s i j → e (i * s.numV + j) = 0)
    (d := fun r => at2 data r k 0) (fun x e w r => surface_add_mul x e w _ _) ha hb'
    (fun i hi j hj h => by dsimp only; rw [a0 i hi j hj h, b0 i hi j hj h]; ring)
  refine ⟨fun row hrow => ?_, fun hdet i hi j hj => ?_⟩
  · obtain ⟨row', hrow', heq⟩ : ∃ row' ∈ data, (row'.getD 3 0, row'.getD 4 0) = (row.getD 3 0, row.getD 4 0) := by
      rcases List.mem_append.1 hrow with h | h
      · exact ⟨row, h, rfl⟩
      · have hpos : 0 < (data'.filter fun r => (r.getD 3 0, r.getD 4 0) = (row.getD 3 0, row.getD 4 0)).length :=
          List.length_pos_of_mem (List.mem_filter.2 ⟨h, by simp⟩)
        have hc := hcount (row.getD 3 0, row.getD 4 0)
        have : (data.filter fun r => (r.getD 3 0, r.getD 4 0) = (row.getD 3 0, row.getD 4 0)) ≠ [] := by
          intro h0
          rw [h0, List.length_nil, Nat.cast_zero, mul_zero] at hc
          have : (0 : K) < ((data'.filter fun r => (r.getD 3 0, r.getD 4 0)
            = (row.getD 3 0, row.getD 4 0)).length : K) := by exact_mod_cast hpos
          rw [hc] at this
          exact lt_irrefl _ this
        obtain ⟨row', h'⟩ := List.exists_mem_of_ne_nil _ this
        rw [List.mem_filter] at h'
        exact ⟨row', h'.1, by simpa using h'.2⟩
    obtain ⟨r, hr, rfl⟩ := exists_getD_of_mem hrow'
    obtain ⟨e1, e2⟩ := Prod.mk.inj heq
    rw [← e1, ← e2]
    exact hval r hr
  · exact surface_normal_unique hs hdet (d := fun r => at2 data r k 0)
      (fun i hi j hj h => by rw [a0 i hi j hj h, b0 i hi j hj h]) hb' ha i hi j hj

/-- **C174.** Data that lie on the fitted surface do not change it. -/
theorem single_fit_surface_extra (hls : IsLstsq ls) (hls' : IsLstsq ls') (hs : ClampedSurface s)
    (fu : knotFn s.kvU s.degreeU < knotFn s.kvU (s.degreeU + 1))
    (fv : knotFn s.kvV s.degreeV < knotFn s.kvV (s.degreeV + 1)) {extra : List (List K)}
    (hd : ∀ row ∈ data ++ extra, row.length = 5)
    (hu : ∀ row ∈ data ++ extra, knotFn s.kvU s.degreeU ≤ row.getD 3 0 ∧ row.getD 3 0 ≤ knotFn s.kvU s.numU)
    (hv : ∀ row ∈ data ++ extra, knotFn s.kvV s.degreeV ≤ row.getD 4 0 ∧ row.getD 4 0 ≤ knotFn s.kvV s.numV) :
    ∃ Z₁ Z₂, singleFitSurface ls s data = .ok { s with ctrlpts := Z₁ } ∧
      singleFitSurface ls' s (data ++ extra) = .ok { s with ctrlpts := Z₂ } ∧ ∀ k < 3,
      (∀ row ∈ extra, row.getD k 0 = srf (coord Z₁ k) (row.getD 3 0) (row.getD 4 0)) →
      (∀ row ∈ data ++ extra, srf (coord Z₂ k) (row.getD 3 0) (row.getD 4 0)
        = srf (coord Z₁ k) (row.getD 3 0) (row.getD 4 0)) ∧
      (GridDetermined s (data ++ extra).length (fun r => at2 (data ++ extra) r 3 0) (fun r => at2 (data ++ extra) r 4 0) →
        ∀ i < s.numU, ∀ j < s.numV, coord Z₂ k (i * s.numV + j) = coord Z₁ k (i * s.numV + j)) := by
  obtain ⟨Z₁, f₁, -, n₁⟩ := single_fit_surface_normal (data := data) (m := data.length) hls hs fu fv
    ⟨rfl, fun row h => hd row (List.mem_append_left _ h)⟩
    (fun r hr => hu _ (List.mem_append_left _ (getD_mem_of_lt hr)))
    (fun r hr => hv _ (List.mem_append_left _ (getD_mem_of_lt hr)))
  obtain ⟨Z₂, f₂, -, n₂⟩ := single_fit_surface_normal (data := data ++ extra) (m := (data ++ extra).length) hls' hs fu fv
    ⟨rfl, hd⟩ (fun r hr => hu _ (getD_mem_of_lt hr)) (fun r hr => hv _ (getD_mem_of_lt hr))
  refine ⟨Z₁, Z₂, f₁, f₂, fun k hk hex => ?_⟩
  obtain ⟨a0, ha⟩ := n₁ k hk
  obtain ⟨b0, hb⟩ := n₂ k hk
  have ha' : ∀ e : ℕ → K, (∀ i < s.numU, ∀ j < s.numV, OnBoundary s i j → e (i * s.numV + j) = 0) →
      ∑ r ∈ range (data ++ extra).length, (srf (coord Z₁ k) (at2 (data ++ extra) r 3 0) (at2 (data ++ extra) r 4 0)
        - at2 (data ++ extra) r k 0) * srf e (at2 (data ++ extra) r 3 0) (at2 (data ++ extra) r 4 0) = 0 := by
    intro e he
    have s1 := sum_getD_map data rfl fun row => (srf (coord Z₁ k) (row.getD 3 0) (row.getD 4 0)
      - row.getD k 0) * srf e (row.getD 3 0) (row.getD 4 0)
    have s2 := sum_getD_map (data ++ extra) rfl fun row => (srf (coord Z₁ k) (row.getD 3 0) (row.getD 4 0)
      - row.getD k 0) * srf e (row.getD 3 0) (row.getD 4 0)
    refine s2.trans ?_
    rw [List.map_append, List.sum_append, s1.symm.trans (ha e he), zero_add]
    refine List.sum_eq_zero fun x hx => ?_
    obtain ⟨row, hrow, rfl⟩ := List.mem_map.1 hx
    rw [hex row hrow]
    ring
  have hval := normal_values (F := fun x r => srf x (at2 (data ++ extra) r 3 0) (at2 (data ++ extra) r 4 0))
    (free := fun e => ∀ i < s.numU, ∀ j < s.numV, OnBoundary s i j → e (i * s.numV + j) = 0)
    (d := fun r => at2 (data ++ extra) r k 0) (fun x e w r => surface_add_mul x e w _ _) hb ha'
    (fun i hi j hj h => by dsimp only; rw [a0 i hi j hj h, b0 i hi j hj h]; ring)
  refine ⟨fun row hrow => ?_, fun hdet i hi j hj => ?_⟩
  · obtain ⟨r, hr, rfl⟩ := exists_getD_of_mem hrow
    exact hval r hr
  · exact surface_normal_unique hs hdet (d := fun r => at2 (data ++ extra) r k 0)
      (fun i hi j hj h => by rw [a0 i hi j hj h, b0 i hi j hj h]) ha' hb i hi j hj

end

/-! ## Examples -/

section Examples

/-- C174: of the four factors of `exWhitneyData`, which add up to three, none exceeds one. -/
example (ls : ℕ → List (List ℚ) → List ℚ → List ℚ) (hls : IsLstsq ls) : ∃ H : ℕ → ℕ → ℚ,
    (∀ q < 4, 0 ≤ H q q ∧ H q q ≤ 1) ∧ ∑ q ∈ range 4, H q q = 3 := by
  obtain ⟨H, -, -, h1, h2, -⟩ := single_fit_curve_influence (m := 4) (t := fun r => at2 exWhitneyData r 3 0) hls
    exWhitney_clamped (by decide) (by decide +kernel) (by intro r hr; interval_cases r <;> decide +kernel)
  refine ⟨H, fun q hq => ⟨(h1 q hq).1, (h1 q hq).2.1⟩, ?_⟩
  rw [h2 exWhitney_determined]
  norm_num

/-- C174: two data at `1/4` may be replaced by their mean, taken twice. -/
def exWhitneyMeans : List (List ℚ) := [[3, 1, 2, 1/4], [2, 0, 1, 1/2], [3, 1, 2, 1/4], [3, 3, 3, 3/4]]

theorem exWhitney_filter {t : ℚ} (h1 : ¬1/4 = t) (h2 : ¬1/2 = t) (h3 : ¬3/4 = t) :
    (exWhitneyMeans.filter fun row => row.getD 3 0 = t) = [] ∧
      (exWhitneyData.filter fun row => row.getD 3 0 = t) = [] := by
  constructor
  · refine List.filter_eq_nil_iff.2 fun row hrow => ?_
    simp only [exWhitneyMeans, List.mem_cons, List.not_mem_nil, or_false] at hrow
    rcases hrow with rfl | rfl | rfl | rfl <;> rw [one_div] at h1 h2 <;> simpa
  · refine List.filter_eq_nil_iff.2 fun row hrow => ?_
    simp only [exWhitneyData, List.mem_cons, List.not_mem_nil, or_false] at hrow
    rcases hrow with rfl | rfl | rfl | rfl <;> rw [one_div] at h1 h2 <;> simpa

theorem exWhitney_count (t : ℚ) : ((exWhitneyMeans.filter fun row => row.getD 3 0 = t).length : ℚ)
    = 1 * (exWhitneyData.filter fun row => row.getD 3 0 = t).length := by
  by_cases h1 : 1/4 = t
  · subst h1; decide +kernel
  by_cases h2 : 1/2 = t
  · subst h2; decide +kernel
  by_cases h3 : 3/4 = t
  · subst h3; decide +kernel
  rw [(exWhitney_filter h1 h2 h3).1, (exWhitney_filter h1 h2 h3).2, one_mul]

theorem exWhitney_sum (k : ℕ) (hk : k < 3) (t : ℚ) :
    ((exWhitneyMeans.filter fun row => row.getD 3 0 = t).map fun row => row.getD k 0).sum
      = 1 * ((exWhitneyData.filter fun row => row.getD 3 0 = t).map fun row => row.getD k 0).sum := by
  by_cases h1 : 1/4 = t
  · subst h1; interval_cases k <;> decide +kernel
  by_cases h2 : 1/2 = t
  · subst h2; interval_cases k <;> decide +kernel
  by_cases h3 : 3/4 = t
  · subst h3; interval_cases k <;> decide +kernel
  rw [(exWhitney_filter h1 h2 h3).1, (exWhitney_filter h1 h2 h3).2, one_mul]

example (ls : ℕ → List (List ℚ) → List ℚ → List ℚ) (hls : IsLstsq ls) :
    ∃ c₁ c₂, singleFitCurve ls exWhitney exWhitneyData = .ok c₁ ∧ singleFitCurve ls exWhitney exWhitneyMeans = .ok c₂ ∧
      ∀ k < 3, ∀ i < 5, coord c₁.ctrlpts k i = coord c₂.ctrlpts k i := by
  obtain ⟨c₁, c₂, h1, h2, h⟩ := single_fit_curve_centroids (ls := ls) (ls' := ls) (c := exWhitney) (n := 5)
    (data := exWhitneyData) (data' := exWhitneyMeans) (w := 1) hls hls exWhitney_clamped (by decide) (by decide +kernel)
    (by exact ⟨rfl, by decide +kernel⟩) (by decide +kernel) (by decide +kernel) (by decide +kernel) one_pos
    exWhitney_count exWhitney_sum
  exact ⟨c₁, c₂, h1, h2, fun k hk => (h k hk).2 exWhitney_determined⟩

/-- C174: a further point of the curve that fits `exWhitneySamples`. -/
example (ls : ℕ → List (List ℚ) → List ℚ → List ℚ) (hls : IsLstsq ls) :
    ∃ c₂, singleFitCurve ls exWhitney (exWhitneySamples ++ [[0, 0, 0, 0], [1/2, 3/4, 17/4, 1/2]]) = .ok c₂ ∧
      ∀ k < 3, ∀ i < 5, coord c₂.ctrlpts k i = coord exWhitneyTarget k i := by
  have hdet : Determined 3 5 (knotFn exWhitney.kv) 3 fun r => at2 exWhitneySamples r 3 0 :=
    ⟨fun j => j - 1, by intro j h1 h2; have : j < 4 := Nat.lt_of_succ_lt_succ h2
                        interval_cases j <;> decide +kernel,
      by intro j h1 h2; have : j < 3 := Nat.lt_of_succ_lt_succ (Nat.lt_of_succ_lt_succ h2)
         interval_cases j <;> decide +kernel⟩
  have hfit := single_fit_curve_recovers (m := 3) (ls := ls) (c := exWhitney) (data := exWhitneySamples)
    (Z := exWhitneyTarget) hls exWhitney_clamped (by decide) (by decide +kernel) ⟨rfl, by decide +kernel⟩
    ⟨rfl, by decide +kernel⟩ (by intro r hr; interval_cases r <;> decide +kernel) hdet ⟨rfl, by decide +kernel⟩ rfl rfl
    (by intro r hr k hk; interval_cases r <;> interval_cases k <;> decide +kernel)
  obtain ⟨c₁, c₂, h1, h2, h⟩ := single_fit_curve_extra (ls := ls) (ls' := ls) (c := exWhitney) (n := 5)
    (data := exWhitneySamples) (extra := [[0, 0, 0, 0], [1/2, 3/4, 17/4, 1/2]]) hls hls exWhitney_clamped (by decide)
    (by decide +kernel) (by exact ⟨rfl, by decide +kernel⟩) (by decide +kernel) (by decide +kernel)
  rw [hfit] at h1
  cases h1
  refine ⟨c₂, h2, fun k hk => (h k hk ?_).2 ?_⟩
  · intro row hrow
    simp only [List.mem_cons, List.not_mem_nil, or_false] at hrow
    rcases hrow with rfl | rfl <;> interval_cases k <;> decide +kernel
  · exact ⟨fun j => j - 1, by intro j h1 h2; have : j < 4 := Nat.lt_of_succ_lt_succ h2
                              interval_cases j <;> decide +kernel,
      by intro j h1 h2; have : j < 3 := Nat.lt_of_succ_lt_succ (Nat.lt_of_succ_lt_succ h2)
         interval_cases j <;> decide +kernel⟩

/-- C174: the two data of `exSData` determine two control points, and the surface goes through both. -/
example (ls : ℕ → List (List ℚ) → List ℚ → List ℚ) (hls : IsLstsq ls) : ∃ H : ℕ → ℕ → ℚ,
    (∀ q < 2, H q q ≤ 1) ∧ ∑ q ∈ range 2, H q q = 2 := by
  obtain ⟨H, -, -, h1, h2, -⟩ := single_fit_surface_influence (m := 2) (s := exS) (u := fun r => at2 exSData r 3 0)
    (v := fun r => at2 exSData r 4 0) hls exS_clamped (by decide +kernel) (by decide +kernel)
    (by intro r hr; interval_cases r <;> decide +kernel) (by intro r hr; interval_cases r <;> decide +kernel)
  refine ⟨H, fun q hq => (h1 q hq).2.1, ?_⟩
  rw [h2 exS_determined]
  norm_num [exS]

end Examples

end PySpline
