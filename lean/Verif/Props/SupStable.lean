import Verif.Lemmas.SupStable
import Verif.Props.Decay
import Verif.Props.Approximation
import Verif.Lemmas.StartRounded

/-!
# C178: fits are stable and close to smooth functions in the maximum norm
-/

set_option linter.unusedSectionVars false

namespace PySpline

open Spec Finset

variable {K : Type} [Field K] [LinearOrder K] [IsStrictOrderedRing K]

/-- The parameters `t` determine inner control points stably: moving them by `e` moves the curve at the parameters by at least
`lam` in the mean square; and each basis function is nonzero at no more than `q` of them. -/
structure StableCurve (p n : ℕ) (V : ℕ → K) (m : ℕ) (t : ℕ → K) (lam : K) (q : ℕ) : Prop where
  pos : 0 < lam
  low : ∀ e : ℕ → K, e 0 = 0 → e (n - 1) = 0 → lam * ∑ i ∈ range n, e i ^ 2 ≤ ∑ r ∈ range m, curve V p n e (t r) ^ 2
  few : ∀ i < n, ((range m).filter fun r => Nclosed V p n i (t r) ≠ 0).card ≤ q

/-- The same for surfaces. -/
structure StableSurface (s : Surface K) (m : ℕ) (u v : ℕ → K) (lam : K) (q : ℕ) : Prop where
  pos : 0 < lam
  low : ∀ e : ℕ → K, (∀ i < s.numU, ∀ j < s.numV, OnBoundary s i j → e (i * s.numV + j) = 0) →
    lam * ∑ i ∈ range s.numU, ∑ j ∈ range s.numV, e (i * s.numV + j) ^ 2
      ≤ ∑ r ∈ range m, surface (knotFn s.kvU) s.degreeU s.numU (knotFn s.kvV) s.degreeV s.numV e (u r) (v r) ^ 2
  few : ∀ i < s.numU, ∀ j < s.numV, ((range m).filter fun r =>
    Nclosed (knotFn s.kvU) s.degreeU s.numU i (u r) * Nclosed (knotFn s.kvV) s.degreeV s.numV j (v r) ≠ 0).card ≤ q

section
variable {p n m q : ℕ} {U : List K} {t : ℕ → K} {lam : K}

/-- **C178.** If two data sets with the same stable parameters differ by at most `δ` and the end points by at most `δ'`, then the
control points that `single_fit_curve` returns, and the curves, differ by at most `C (δ + δ')` everywhere.  The constant
`C = (3 p + 1) (q + lam) (q + 2 lam) / lam²` does not depend on the number of control points or data. -/
theorem single_fit_curve_sup_stable (hU : Clamped p n U) (hp : 1 ≤ p) (hfirst : knotFn U p < knotFn U (p + 1))
    (hdom : ∀ r < m, knotFn U p ≤ t r ∧ t r ≤ knotFn U n) (hst : StableCurve p n (knotFn U) m t lam q)
    {ls₁ ls₂ : ℕ → List (List K) → List K → List K} (h₁ : IsLstsq ls₁) (h₂ : IsLstsq ls₂)
    {P₁ P₂ data₁ data₂ : List (List K)} (hP₁ : Shape P₁ n 3) (hP₂ : Shape P₂ n 3) (hd₁ : Shape data₁ m 4)
    (hd₂ : Shape data₂ m 4) (hpar : ∀ r < m, at2 data₁ r 3 0 = t r ∧ at2 data₂ r 3 0 = t r) :
    ∃ c₁ c₂, singleFitCurve ls₁ ⟨p, P₁, U⟩ data₁ = .ok c₁ ∧ singleFitCurve ls₂ ⟨p, P₂, U⟩ data₂ = .ok c₂ ∧
      ∀ k < 3, ∀ δ δ', 0 ≤ δ → |coord P₂ k 0 - coord P₁ k 0| ≤ δ' → |coord P₂ k (n - 1) - coord P₁ k (n - 1)| ≤ δ' →
        (∀ r < m, |at2 data₂ r k 0 - at2 data₁ r k 0| ≤ δ) →
        (∀ i < n, |coord c₂.ctrlpts k i - coord c₁.ctrlpts k i|
          ≤ (3 * p + 1) * (q + lam) * (q + 2 * lam) / lam ^ 2 * (δ + δ')) ∧
        ∀ u, knotFn U p ≤ u → u ≤ knotFn U n →
          |curve (knotFn U) p n (coord c₂.ctrlpts k) u - curve (knotFn U) p n (coord c₁.ctrlpts k) u|
            ≤ (3 * p + 1) * (q + lam) * (q + 2 * lam) / lam ^ 2 * (δ + δ') := by
  have hsz := hU.size
  obtain ⟨c₁, f₁, -, -, -, n₁⟩ := single_fit_curve_normal (c := ⟨p, P₁, U⟩) h₁ hU hfirst hP₁ hd₁
    (fun r hr => by rw [(hpar r hr).1]; exact hdom r hr)
  obtain ⟨c₂, f₂, -, -, -, n₂⟩ := single_fit_curve_normal (c := ⟨p, P₂, U⟩) h₂ hU hfirst hP₂ hd₂
    (fun r hr => by rw [(hpar r hr).2]; exact hdom r hr)
  refine ⟨c₁, c₂, f₁, f₂, fun k hk δ δ' hδ hf hl hd => ?_⟩
  obtain ⟨a0, a1, ha⟩ := n₁ k hk
  obtain ⟨b0, b1, hb⟩ := n₂ k hk
  dsimp only at a0 a1 ha b0 b1 hb
  set y : ℕ → K := fun i => coord c₂.ctrlpts k i + (-1) * coord c₁.ctrlpts k i with hy
  have hyv : ∀ i, y i = coord c₂.ctrlpts k i - coord c₁.ctrlpts k i := fun i => by simp only [hy]; ring
  have hyc : ∀ u, curve (knotFn U) p n y u
      = curve (knotFn U) p n (coord c₂.ctrlpts k) u - curve (knotFn U) p n (coord c₁.ctrlpts k) u := fun u => by
    rw [hy, curve_add_mul]; ring
  have hn : ∀ e : ℕ → K, e 0 = 0 → e (n - 1) = 0 → ∑ r ∈ range m, (curve (knotFn U) p n y (t r)
      - (at2 data₂ r k 0 - at2 data₁ r k 0)) * curve (knotFn U) p n e (t r) = 0 := fun e e0 e1 => by
    have := congrArg₂ (· - ·) (hb e e0 e1) (ha e e0 e1)
    rw [sub_zero, ← sum_sub_distrib] at this
    refine Eq.trans (sum_congr rfl fun r hr => ?_) this
    rw [(hpar r (mem_range.1 hr)).1, (hpar r (mem_range.1 hr)).2, hyc]
    ring
  have main : ∀ i < n, |y i| ≤ (3 * p + 1) * (q + lam) * (q + 2 * lam) / lam ^ 2 * (δ + δ') := fun i hi =>
    curve_sup hU hp hdom hst.pos hst.few hst.low hn hδ hd (by rw [hyv, a0, b0]; exact hf) (by rw [hyv, a1, b1]; exact hl) hi
  refine ⟨fun i hi => by rw [← hyv]; exact main i hi, fun u u0 u1 => ?_⟩
  rw [← hyc, abs_le]
  have hr : u ≤ knotFn U (n + p) := u1.trans (le_of_eq (hU.right n le_rfl (by omega)))
  refine ⟨?_, curve_le hU u0 hr fun i hi _ _ => (abs_le.1 (main i hi)).2⟩
  have := curve_le hU u0 hr (c := fun i => -y i)
    (b := (3 * p + 1) * (q + lam) * (q + 2 * lam) / lam ^ 2 * (δ + δ')) fun i hi _ _ => by
      have := (abs_le.1 (main i hi)).1
      linarith
  have e : curve (knotFn U) p n (fun i => -y i) u = -curve (knotFn U) p n y u := by
    unfold curve
    rw [← sum_neg_distrib]
    exact sum_congr rfl fun i _ => by ring
  linarith

/-- **C178.** If the data are values of a function with Taylor's formula of order `o ≤ p`, up to errors of at most `ε`, and the end
points are its end values, then the curve that `single_fit_curve` returns is close to the function everywhere, not only at the
parameters of the data: the distance is at most `(1 + C) (o + 1) M h ^ (o + 1) + C ε`. -/
theorem single_fit_curve_sup_smooth {ls : ℕ → List (List K) → List K → List K} (hls : IsLstsq ls)
    {c : Curve K} {data : List (List K)} (hp : 1 ≤ c.degree) (hU : Clamped c.degree n c.kv)
    (hfirst : knotFn c.kv c.degree < knotFn c.kv (c.degree + 1)) (hP : Shape c.ctrlpts n 3) (hd : Shape data m 4)
    (hdom : ∀ r < m, knotFn c.kv c.degree ≤ at2 data r 3 0 ∧ at2 data r 3 0 ≤ knotFn c.kv n)
    (hst : StableCurve c.degree n (knotFn c.kv) m (fun r => at2 data r 3 0) lam q)
    {h : K} (hh : ∀ i < n, knotFn c.kv (i + c.degree + 1) - knotFn c.kv i ≤ h) :
    ∃ c', singleFitCurve ls c data = .ok c' ∧ c'.degree = c.degree ∧ c'.kv = c.kv ∧
      ∀ k < 3, ∀ o ≤ c.degree, ∀ M ε a, 0 ≤ M → SmoothData o M ε (knotFn c.kv c.degree) (knotFn c.kv n)
        (coord c.ctrlpts k 0) (coord c.ctrlpts k (n - 1)) m (fun r => at2 data r 3 0) (fun r => at2 data r k 0) a →
      ∀ C : K, C = (3 * c.degree + 1) * (q + lam) * (q + 2 * lam) / lam ^ 2 → 0 ≤ ε →
      ∀ u, knotFn c.kv c.degree ≤ u → u ≤ knotFn c.kv n →
        |curve (knotFn c.kv) c.degree n (coord c'.ctrlpts k) u - a 0 u| ≤ (1 + C) * ((o + 1) * M * h ^ (o + 1)) + C * ε := by
  have hsz := hU.size
  obtain ⟨c', h1, h2, h3, -, hn⟩ := single_fit_curve_normal hls hU hfirst hP hd hdom
  refine ⟨c', h1, h2, h3, fun k hk o ho M ε a hM hs C hC hε u u0 u1 => ?_⟩
  obtain ⟨a0, a1, ha⟩ := hn k hk
  obtain ⟨z, z0, z1, hz, -⟩ := exists_smooth_curve hU hp ho hh hM hs.taylor
  set η : K := (o + 1) * M * h ^ (o + 1) with hη
  have hη0 : 0 ≤ η := (abs_nonneg _).trans (hz u u0 u1)
  set y : ℕ → K := fun i => coord c'.ctrlpts k i + (-1) * z i with hy
  have hyc : ∀ u, curve (knotFn c.kv) c.degree n y u
      = curve (knotFn c.kv) c.degree n (coord c'.ctrlpts k) u - curve (knotFn c.kv) c.degree n z u := fun u => by
    rw [hy, curve_add_mul]; ring
  have main : ∀ i < n, |y i| ≤ C * (η + ε) := fun i hi => by
    have := curve_sup (δ' := 0) (y := y) (g := fun r => at2 data r k 0 - curve (knotFn c.kv) c.degree n z (at2 data r 3 0))
      hU hp hdom hst.pos hst.few hst.low
      (fun e e0 e1 => Eq.trans (sum_congr rfl fun r _ => by rw [hyc]; ring) (ha e e0 e1)) (add_nonneg hη0 hε)
      (fun r hr => by
        have e1 := hz _ (hdom r hr).1 (hdom r hr).2
        have e2 := hs.values r hr
        have := abs_sub_le (curve (knotFn c.kv) c.degree n z (at2 data r 3 0)) (a 0 (at2 data r 3 0)) (at2 data r k 0)
        rw [abs_sub_comm]
        linarith)
      (by simp only [hy]; rw [a0, z0, hs.first]; simp) (by simp only [hy]; rw [a1, z1, hs.last]; simp) hi
    rw [add_zero] at this
    rw [hC]
    exact this
  have hr : u ≤ knotFn c.kv (n + c.degree) := u1.trans (le_of_eq (hU.right n le_rfl (by omega)))
  have hyu : |curve (knotFn c.kv) c.degree n y u| ≤ C * (η + ε) := by
    rw [abs_le]
    refine ⟨?_, curve_le hU u0 hr fun i hi _ _ => (abs_le.1 (main i hi)).2⟩
    have := curve_le hU u0 hr (c := fun i => -y i) (b := C * (η + ε)) fun i hi _ _ => by
      have := (abs_le.1 (main i hi)).1
      linarith
    have e : curve (knotFn c.kv) c.degree n (fun i => -y i) u = -curve (knotFn c.kv) c.degree n y u := by
      unfold curve
      rw [← sum_neg_distrib]
      exact sum_congr rfl fun i _ => by ring
    linarith
  have e1 := hz u u0 u1
  have e2 := abs_add_le (curve (knotFn c.kv) c.degree n y u) (curve (knotFn c.kv) c.degree n z u - a 0 u)
  rw [show curve (knotFn c.kv) c.degree n y u + (curve (knotFn c.kv) c.degree n z u - a 0 u)
    = curve (knotFn c.kv) c.degree n (coord c'.ctrlpts k) u - a 0 u by rw [hyc]; ring] at e2
  calc _ ≤ C * (η + ε) + η := e2.trans (add_le_add hyu e1)
    _ = _ := by ring

end

section
variable {s : Surface K} {m q : ℕ} {u v : ℕ → K} {lam : K}

local notation "srf" => surface (knotFn s.kvU) s.degreeU s.numU (knotFn s.kvV) s.degreeV s.numV

/-- **C178.** The same for surfaces, with `C = 8 (3 p + 1) (3 p' + 1) (q + lam) (q + 2 lam)² / lam³`. -/
theorem single_fit_surface_sup_stable (hs : ClampedSurface s)
    (fu : knotFn s.kvU s.degreeU < knotFn s.kvU (s.degreeU + 1))
    (fv : knotFn s.kvV s.degreeV < knotFn s.kvV (s.degreeV + 1))
    (hu : ∀ r < m, knotFn s.kvU s.degreeU ≤ u r ∧ u r ≤ knotFn s.kvU s.numU)
    (hv : ∀ r < m, knotFn s.kvV s.degreeV ≤ v r ∧ v r ≤ knotFn s.kvV s.numV) (hst : StableSurface s m u v lam q)
    {ls₁ ls₂ : ℕ → List (List K) → List K → List K} (h₁ : IsLstsq ls₁) (h₂ : IsLstsq ls₂)
    {P₁ P₂ data₁ data₂ : List (List K)} (hP₁ : Shape P₁ (s.numU * s.numV) 3) (hP₂ : Shape P₂ (s.numU * s.numV) 3)
    (hd₁ : Shape data₁ m 5) (hd₂ : Shape data₂ m 5)
    (hpar : ∀ r < m, (at2 data₁ r 3 0 = u r ∧ at2 data₁ r 4 0 = v r) ∧ at2 data₂ r 3 0 = u r ∧ at2 data₂ r 4 0 = v r) :
    ∃ Z₁ Z₂, singleFitSurface ls₁ { s with ctrlpts := P₁ } data₁ = .ok { s with ctrlpts := Z₁ } ∧
      singleFitSurface ls₂ { s with ctrlpts := P₂ } data₂ = .ok { s with ctrlpts := Z₂ } ∧
      ∀ k < 3, ∀ δ δ', 0 ≤ δ → 0 ≤ δ' → (∀ i < s.numU, ∀ j < s.numV, OnBoundary s i j →
          |coord P₂ k (i * s.numV + j) - coord P₁ k (i * s.numV + j)| ≤ δ') →
        (∀ r < m, |at2 data₂ r k 0 - at2 data₁ r k 0| ≤ δ) → ∀ i < s.numU, ∀ j < s.numV,
        |coord Z₂ k (i * s.numV + j) - coord Z₁ k (i * s.numV + j)|
          ≤ 8 * (3 * s.degreeU + 1) * (3 * s.degreeV + 1) * (q + lam) * (q + 2 * lam) ^ 2 / lam ^ 3 * (δ + δ') := by
  have hcl : ∀ {P : List (List K)}, Shape P (s.numU * s.numV) 3 → ClampedSurface { s with ctrlpts := P } :=
    fun h => ⟨hs.cu, hs.cv, hs.du, hs.dv, h⟩
  obtain ⟨Z₁, f₁, -, n₁⟩ := single_fit_surface_normal (s := { s with ctrlpts := P₁ }) h₁ (hcl hP₁) fu fv hd₁
    (fun r hr => by rw [(hpar r hr).1.1]; exact hu r hr) (fun r hr => by rw [(hpar r hr).1.2]; exact hv r hr)
  obtain ⟨Z₂, f₂, -, n₂⟩ := single_fit_surface_normal (s := { s with ctrlpts := P₂ }) h₂ (hcl hP₂) fu fv hd₂
    (fun r hr => by rw [(hpar r hr).2.1]; exact hu r hr) (fun r hr => by rw [(hpar r hr).2.2]; exact hv r hr)
  refine ⟨Z₁, Z₂, f₁, f₂, fun k hk δ δ' hδ hδ' hbd hd i hi j hj => ?_⟩
  obtain ⟨a0, ha⟩ := n₁ k hk
  obtain ⟨b0, hb⟩ := n₂ k hk
  dsimp only at a0 ha b0 hb
  set y : ℕ → K := fun l => coord Z₂ k l + (-1) * coord Z₁ k l with hy
  have hyv : ∀ l, y l = coord Z₂ k l - coord Z₁ k l := fun i => by simp only [hy]; ring
  rw [← hyv]
  refine surface_sup (bd := OnBoundary s) hs.cu hs.cv hs.du hs.dv hu hv hst.pos hst.few hst.low (fun e he => ?_) hδ hd hδ'
    (fun i hi j hj h => by rw [hyv, a0 i hi j hj h, b0 i hi j hj h]; exact hbd i hi j hj h) hi hj
  have := congrArg₂ (· - ·) (hb e he) (ha e he)
  rw [sub_zero, ← sum_sub_distrib] at this
  refine Eq.trans (sum_congr rfl fun r hr => ?_) this
  have hr := mem_range.1 hr
  rw [(hpar r hr).1.1, (hpar r hr).1.2, (hpar r hr).2.1, (hpar r hr).2.2, hy, surface_add_mul]
  ring

/-- **C178.** The surface that `single_fit_surface` returns for smooth data is close to the function everywhere. -/
theorem single_fit_surface_sup_smooth {ls : ℕ → List (List K) → List K → List K} (hls : IsLstsq ls)
    {data : List (List K)} (hs : ClampedSurface s)
    (fu : knotFn s.kvU s.degreeU < knotFn s.kvU (s.degreeU + 1))
    (fv : knotFn s.kvV s.degreeV < knotFn s.kvV (s.degreeV + 1)) (hd : Shape data m 5)
    (hu : ∀ r < m, knotFn s.kvU s.degreeU ≤ at2 data r 3 0 ∧ at2 data r 3 0 ≤ knotFn s.kvU s.numU)
    (hv : ∀ r < m, knotFn s.kvV s.degreeV ≤ at2 data r 4 0 ∧ at2 data r 4 0 ≤ knotFn s.kvV s.numV)
    (hst : StableSurface s m (fun r => at2 data r 3 0) (fun r => at2 data r 4 0) lam q)
    {h : K} (hh : ∀ i < s.numU, knotFn s.kvU (i + s.degreeU + 1) - knotFn s.kvU i ≤ h)
    (hh' : ∀ j < s.numV, knotFn s.kvV (j + s.degreeV + 1) - knotFn s.kvV j ≤ h) :
    ∃ Z, singleFitSurface ls s data = .ok { s with ctrlpts := Z } ∧
      ∀ k < 3, ∀ o ≤ s.degreeU, o ≤ s.degreeV → ∀ M δ ε a, 0 ≤ M → 0 ≤ δ → 0 ≤ ε →
        TaylorOn2 o M (knotFn s.kvU s.degreeU) (knotFn s.kvU s.numU) (knotFn s.kvV s.degreeV) (knotFn s.kvV s.numV) a →
        (∀ i < s.numU, ∀ j < s.numV, OnBoundary s i j →
          |coord s.ctrlpts k (i * s.numV + j) - quasi2 s.degreeU s.degreeV o a (fun r => knotFn s.kvU (i + 1 + r))
            (fun r => knotFn s.kvV (j + 1 + r)) (knotFn s.kvU (i + 1)) (knotFn s.kvV (j + 1))| ≤ δ) →
        (∀ r < m, |a 0 0 (at2 data r 3 0) (at2 data r 4 0) - at2 data r k 0| ≤ ε) →
        ∀ C : K, C = 8 * (3 * s.degreeU + 1) * (3 * s.degreeV + 1) * (q + lam) * (q + 2 * lam) ^ 2 / lam ^ 3 →
        ∀ x y, (knotFn s.kvU s.degreeU ≤ x ∧ x ≤ knotFn s.kvU s.numU) → (knotFn s.kvV s.degreeV ≤ y ∧ y ≤ knotFn s.kvV s.numV) →
          |srf (coord Z k) x y - a 0 0 x y| ≤ (1 + C) * ((o + 1) ^ 2 * M * h ^ (o + 1)) + C * (δ + ε) := by
  have su := hs.cu.size
  have sv := hs.cv.size
  obtain ⟨Z, h1, -, hn⟩ := single_fit_surface_normal hls hs fu fv hd hu hv
  refine ⟨Z, h1, fun k hk o hou hov M δ ε a hM hδ hε ha hb hval C hC x y hx hy => ?_⟩
  obtain ⟨b0, hnk⟩ := hn k hk
  let b : ℕ → ℕ → K := fun i j => quasi2 s.degreeU s.degreeV o a (fun r => knotFn s.kvU (i + 1 + r))
    (fun r => knotFn s.kvV (j + 1 + r)) (knotFn s.kvU (i + 1)) (knotFn s.kvV (j + 1))
  let z : ℕ → K := fun l => b (l / s.numV) (l % s.numV)
  have hz : ∀ i j, j < s.numV → z (i * s.numV + j) = b i j := by
    intro i j hj
    have e1 : (i * s.numV + j) / s.numV = i := by
      rw [mul_comm, Nat.mul_add_div (by omega), Nat.div_eq_of_lt hj, add_zero]
    have e2 : (i * s.numV + j) % s.numV = j := by
      rw [mul_comm, Nat.mul_add_mod, Nat.mod_eq_of_lt hj]
    simp only [z, e1, e2]
  set η : K := (o + 1) ^ 2 * M * h ^ (o + 1) with hη
  have hzf : ∀ x y, (knotFn s.kvU s.degreeU ≤ x ∧ x ≤ knotFn s.kvU s.numU) →
      (knotFn s.kvV s.degreeV ≤ y ∧ y ≤ knotFn s.kvV s.numV) → |srf z x y - a 0 0 x y| ≤ η := fun x y hx hy => by
    have := smooth_surface hs.cu hs.cv hou hov hh hh' hM ha (z := z) (δ := 0) (fun i hi j hj => by
      rw [hz i j hj]
      show |b i j - b i j| ≤ 0
      rw [sub_self, abs_zero]) hx.1 hx.2 hy.1 hy.2
    rwa [add_zero] at this
  have hη0 : 0 ≤ η := (abs_nonneg _).trans (hzf x y hx hy)
  set w : ℕ → K := fun l => coord Z k l + (-1) * z l with hw
  have hwc : ∀ x y, srf w x y = srf (coord Z k) x y - srf z x y := fun x y => by
    rw [hw, surface_add_mul]; ring
  have main : ∀ i < s.numU, ∀ j < s.numV, |w (i * s.numV + j)| ≤ C * (η + ε + δ) := fun i hi j hj => by
    rw [hC]
    refine surface_sup (bd := OnBoundary s) (g := fun r => at2 data r k 0 - srf z (at2 data r 3 0) (at2 data r 4 0))
      hs.cu hs.cv hs.du hs.dv hu hv hst.pos hst.few hst.low
      (fun e he => Eq.trans (sum_congr rfl fun r _ => by rw [hwc]; ring) (hnk e he)) (add_nonneg hη0 hε)
      (fun r hr => ?_) hδ (fun i hi j hj h => ?_) hi hj
    · have e1 := hzf _ _ (hu r hr) (hv r hr)
      have e2 := hval r hr
      have := abs_sub_le (srf z (at2 data r 3 0) (at2 data r 4 0)) (a 0 0 (at2 data r 3 0) (at2 data r 4 0)) (at2 data r k 0)
      rw [abs_sub_comm]
      linarith
    · simp only [hw]
      rw [hz i j hj, b0 i hi j hj h, show ∀ A B : K, A + -1 * B = A - B from fun A B => by ring]
      exact hb i hi j hj h
  have hwu : |srf w x y| ≤ C * (η + ε + δ) := by
    rw [abs_le]
    refine ⟨?_, surface_le_bound hs.cu hs.cv hx hy fun i hi j hj => (abs_le.1 (main i hi j hj)).2⟩
    have := surface_le_bound (c := fun l => -w l) (M := C * (η + ε + δ)) hs.cu hs.cv hx hy fun i hi j hj => by
      have := (abs_le.1 (main i hi j hj)).1
      linarith
    have e : srf (fun l => -w l) x y = -srf w x y := by
      unfold surface
      rw [← sum_neg_distrib]
      refine sum_congr rfl fun i _ => ?_
      rw [← sum_neg_distrib]
      exact sum_congr rfl fun j _ => by ring
    linarith
  have e1 := hzf x y hx hy
  have e2 := abs_add_le (srf w x y) (srf z x y - a 0 0 x y)
  rw [show srf w x y + (srf z x y - a 0 0 x y) = srf (coord Z k) x y - a 0 0 x y by rw [hwc]; ring] at e2
  calc _ ≤ C * (η + ε + δ) + η := e2.trans (add_le_add hwu e1)
    _ = _ := by ring

end

/-! ## Examples -/

section Examples

theorem exDecay_stableCurve : StableCurve 1 7 (knotFn exDecayKnots) 11 exDecayPar 1 3 :=
  ⟨one_pos, exDecay_stable, by decide +kernel⟩

/-- Moving the first datum by eight moves no control point by more than `80 · 8`. -/
example (ls : ℕ → List (List ℚ) → List ℚ → List ℚ) (hls : IsLstsq ls) :
    ∃ c₁ c₂, singleFitCurve ls ⟨1, exDecayPts, exDecayKnots⟩ (exDecayData 0) = .ok c₁ ∧
      singleFitCurve ls ⟨1, exDecayPts, exDecayKnots⟩ (exDecayData 8) = .ok c₂ ∧
      ∀ i < 7, |coord c₂.ctrlpts 1 i - coord c₁.ctrlpts 1 i| ≤ 80 * 8 := by
  obtain ⟨c₁, c₂, h1, h2, h⟩ := single_fit_curve_sup_stable (m := 11) (t := exDecayPar) exDecay_clamped le_rfl
    (by decide +kernel) (by decide +kernel) exDecay_stableCurve hls hls
    (P₁ := exDecayPts) (P₂ := exDecayPts) (data₁ := exDecayData 0) (data₂ := exDecayData 8)
    ⟨rfl, by decide +kernel⟩ ⟨rfl, by decide +kernel⟩ ⟨rfl, by decide +kernel⟩ ⟨rfl, by decide +kernel⟩ (by decide +kernel)
  refine ⟨c₁, c₂, h1, h2, fun i hi => ?_⟩
  have := (h 1 (by norm_num) 8 0 (by norm_num) (by rw [sub_self, abs_zero]) (by rw [sub_self, abs_zero])
    (by decide +kernel)).1 i hi
  refine this.trans (le_of_eq ?_)
  norm_num

/-- The first coordinates of the data are the parameters: the curve is the straight line everywhere. -/
example (ls : ℕ → List (List ℚ) → List ℚ → List ℚ) (hls : IsLstsq ls) :
    ∃ c', singleFitCurve ls ⟨1, exDecayPts, exDecayKnots⟩ (exDecayData 8) = .ok c' ∧
      (∀ u, 0 ≤ u → u ≤ 6 → curve (knotFn exDecayKnots) 1 7 (coord c'.ctrlpts 0) u = u) ∧
      ∀ u, 0 ≤ u → u ≤ 6 → |curve (knotFn exDecayKnots) 1 7 (coord c'.ctrlpts 1) u| ≤ 80 * 8 := by
  obtain ⟨c', h1, -, -, h⟩ := single_fit_curve_sup_smooth (m := 11) (n := 7) (q := 3) (lam := 1) hls
    (c := ⟨1, exDecayPts, exDecayKnots⟩) (data := exDecayData 8) le_rfl exDecay_clamped (by decide +kernel)
    ⟨rfl, by decide +kernel⟩ ⟨rfl, by decide +kernel⟩ (by decide +kernel)
    ⟨one_pos, fun e e0 e1 => by
      refine (exDecay_stable e e0 e1).trans (le_of_eq (sum_congr rfl fun r hr => ?_))
      rw [show at2 (exDecayData 8) r 3 0 = exDecayPar r from
        (show ∀ r < 11, at2 (exDecayData 8) r 3 0 = exDecayPar r by decide +kernel) r (mem_range.1 hr)], by decide +kernel⟩
    (h := 2) (by decide +kernel)
  refine ⟨c', h1, fun u u0 u1 => ?_, fun u u0 u1 => ?_⟩
  · have := h 0 (by norm_num) 1 le_rfl 0 0 (fun k x => (Polynomial.taylor x (Polynomial.X : Polynomial ℚ)).coeff k) le_rfl
      ⟨taylorOn_polynomial _ (Polynomial.natDegree_X_le) _ _, ?_, ?_, ?_⟩ _ rfl le_rfl u u0 u1
    · simp only [mul_zero, zero_mul, add_zero] at this
      have := abs_nonpos_iff.1 this
      simp at this
      linarith
    · simp only [Polynomial.taylor_coeff_zero, Polynomial.eval_X]
      decide +kernel
    · simp only [Polynomial.taylor_coeff_zero, Polynomial.eval_X]
      decide +kernel
    · simp only [Polynomial.taylor_coeff_zero, Polynomial.eval_X]
      decide +kernel
  · have := h 1 (by norm_num) 1 le_rfl 0 8 (fun _ _ => 0) le_rfl ⟨?_, by decide +kernel, by decide +kernel, by decide +kernel⟩
      _ rfl (by norm_num) u u0 u1
    · rw [sub_zero] at this
      refine this.trans (le_of_eq ?_)
      norm_num
    · intro x y _ _ _ _ k _
      simp

theorem exDecaySurface_stableSurface : StableSurface exDecaySurface 11 exDecayPar (fun _ => 1) 1 3 :=
  ⟨one_pos, exDecaySurface_stable, by decide +kernel⟩

/-- Moving the first datum by `h` moves no control point by more than a constant times `h`. -/
example (ls : ℕ → List (List ℚ) → List ℚ → List ℚ) (hls : IsLstsq ls) (h : ℚ) (hh : 0 ≤ h) :
    ∃ Z₁ Z₂, singleFitSurface ls exDecaySurface (exDecaySurfaceData 0) = .ok { exDecaySurface with ctrlpts := Z₁ } ∧
      singleFitSurface ls exDecaySurface (exDecaySurfaceData h) = .ok { exDecaySurface with ctrlpts := Z₂ } ∧
      ∀ i < 7, ∀ j < 3, |coord Z₂ 2 (i * 3 + j) - coord Z₁ 2 (i * 3 + j)| ≤ 12800 * h := by
  obtain ⟨Z₁, Z₂, h1, h2, hd⟩ := single_fit_surface_sup_stable (m := 11) (u := exDecayPar) (v := fun _ => 1)
    exDecaySurface_clamped (by decide +kernel) (by decide +kernel) (by decide +kernel) (by decide +kernel)
    exDecaySurface_stableSurface hls hls
    (P₁ := exDecaySurface.ctrlpts) (P₂ := exDecaySurface.ctrlpts) (data₁ := exDecaySurfaceData 0)
    (data₂ := exDecaySurfaceData h) ⟨rfl, by decide +kernel⟩ ⟨rfl, by decide +kernel⟩ ⟨rfl, by decide +kernel⟩
    ⟨rfl, by intro row hrow; obtain ⟨r, -, rfl⟩ := List.mem_map.1 hrow; rfl⟩
    (by intro r hr; interval_cases r <;> exact ⟨⟨rfl, rfl⟩, rfl, rfl⟩)
  refine ⟨Z₁, Z₂, h1, h2, fun i hi j hj => ?_⟩
  have := hd 2 (by norm_num) h 0 hh le_rfl (fun i _ j _ _ => by rw [sub_self, abs_zero]) (by
    intro r hr
    by_cases h0 : r = 0
    · subst h0
      show |h - 0| ≤ h
      rw [sub_zero, abs_of_nonneg hh]
    · have e : at2 (exDecaySurfaceData h) r 2 0 - at2 (exDecaySurfaceData 0) r 2 0 = 0 := by
        interval_cases r <;> first | exact absurd rfl h0 | exact sub_self _
      rw [e, abs_zero]
      exact hh) i hi j hj
  refine this.trans (le_of_eq ?_)
  norm_num [exDecaySurface]

/-- The surface is close to the plane of its frame. -/
example (ls : ℕ → List (List ℚ) → List ℚ → List ℚ) (hls : IsLstsq ls) :
    ∃ Z, singleFitSurface ls exDecaySurface (exDecaySurfaceData 8) = .ok { exDecaySurface with ctrlpts := Z } ∧
      ∀ x y, 0 ≤ x → x ≤ 6 → 0 ≤ y → y ≤ 2 →
        |surface (knotFn exDecayKnots) 1 7 (knotFn [0, 0, 1, 2, 2]) 1 3 (coord Z 2) x y| ≤ 12800 * 8 := by
  have hpar : ∀ r < 11, at2 (exDecaySurfaceData 8) r 3 0 = exDecayPar r ∧ at2 (exDecaySurfaceData 8) r 4 0 = 1 := by
    decide +kernel
  obtain ⟨Z, h1, h⟩ := single_fit_surface_sup_smooth (m := 11) (q := 3) (lam := 1) hls (s := exDecaySurface)
    (data := exDecaySurfaceData 8) exDecaySurface_clamped (by decide +kernel) (by decide +kernel) ⟨rfl, by decide +kernel⟩
    (by decide +kernel) (by decide +kernel)
    ⟨one_pos, fun e he => (exDecaySurface_stable e he).trans (le_of_eq (sum_congr rfl fun r hr => by
      rw [(hpar r (mem_range.1 hr)).1, (hpar r (mem_range.1 hr)).2]; rfl)), by decide +kernel⟩
    (h := 2) (by decide +kernel) (by decide +kernel)
  refine ⟨Z, h1, fun x y x0 x1 y0 y1 => ?_⟩
  have := h 2 (by norm_num) 1 (by decide) (by decide) 0 0 8 (fun _ _ _ _ => 0) le_rfl le_rfl (by norm_num) ?_ ?_ ?_ _ rfl x y
    ⟨x0, x1⟩ ⟨y0, y1⟩
  · rw [sub_zero] at this
    refine this.trans (le_of_eq ?_)
    norm_num [exDecaySurface]
  · intro x y x' y' h _ _ _ _ _ _ k l _
    simp
  · intro i hi j hj _
    have : quasi2 exDecaySurface.degreeU exDecaySurface.degreeV 1 (fun _ _ (_ _ : ℚ) => 0)
        (fun r => knotFn exDecaySurface.kvU (i + 1 + r)) (fun r => knotFn exDecaySurface.kvV (j + 1 + r))
        (knotFn exDecaySurface.kvU (i + 1)) (knotFn exDecaySurface.kvV (j + 1)) = 0 := by
      simp [quasi2]
    rw [this]
    have hz : ∀ i < 7, ∀ j < 3, |coord exDecaySurface.ctrlpts 2 (i * exDecaySurface.numV + j) - 0| ≤ (0 : ℚ) := by
      decide +kernel
    exact hz i hi j hj
  · decide +kernel

end Examples

end PySpline
