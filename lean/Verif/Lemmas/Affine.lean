import Verif.Lemmas.Simulation
import Verif.Lemmas.Piece
import Verif.Model.Basis
import Verif.Model.BSpline

/-!
# The basis functions under an affine change of knots and parameter
-/

set_option linter.unusedSectionVars false

namespace PySpline

variable {K : Type} [Field K] [LinearOrder K]

/-- Reading a knot before and after the change. -/
theorem get_affine (a b : K) (U : List K) (i : ℤ) :
    Alike (fun x y => y = a * x + b) (pyGet U i) (pyGet (U.map fun x => a * x + b) i) :=
  ((Along.map _ U).get i).mono fun _ _ ⟨_, _, h⟩ => h

theorem scale_div {a : K} (ha : a ≠ 0) (x y : K) : x / y = a * (x / (a * y)) := by
  rw [← mul_div_assoc, mul_div_mul_left _ _ ha]

theorem basisFunctions_affine {a : K} (ha : a ≠ 0) (b : K) (span : ℤ) (u : K) (p : ℕ) (U : List K) :
    basisFunctions span (a * u + b) p (U.map fun x => a * x + b) = basisFunctions span u p U := by
  symm
  apply Alike.eq
  unfold basisFunctions
  dsimp only
  refine Alike.bind (R := fun (s t : List K × List K × List K) => s.1 = t.1) ?_ fun s t h => Alike.ok h
  have h0 : Along (fun _ x y => y = a * x) (zeros (p + 1)) (zeros (p + 1) : List K) :=
    Along.replicate _ _ _ fun _ => (mul_zero a).symm
  refine (Alike.forN (fun _ (s t : List K × List K × List K) => t.1 = s.1
      ∧ Along (fun _ x y => y = a * x) s.2.1 t.2.1 ∧ Along (fun _ x y => y = a * x) s.2.2 t.2.2)
    (by omega) ⟨rfl, h0, h0⟩ ?_).mono fun s t h => h.1.symm
  rintro j ⟨N, l, r⟩ ⟨N', l', r'⟩ - - ⟨rfl, hl, hr⟩
  refine Alike.bind (get_affine a b U _) fun x x' hx => ?_
  refine Alike.bind (hl.set _ (S := fun _ x y => y = a * x) (fun _ _ _ h => h) fun _ _ => by rw [hx]; ring)
    fun l₁ l₁' hl₁ => ?_
  refine Alike.bind (get_affine a b U _) fun x x' hx => ?_
  refine Alike.bind (hr.set _ (S := fun _ x y => y = a * x) (fun _ _ _ h => h) fun _ _ => by rw [hx]; ring)
    fun r₁ r₁' hr₁ => ?_
  refine Alike.bind (R := Eq) ?_ ?_
  · refine Alike.forN (fun _ => Eq) (by omega) rfl ?_
    rintro i ⟨M, s⟩ _ - - rfl
    refine Alike.bind (Alike.refl _) ?_
    rintro m _ rfl
    refine Alike.bind (hr₁.get _) fun y y' ⟨_, _, hy⟩ => ?_
    refine Alike.bind (hl₁.get _) fun z z' ⟨_, _, hz⟩ => ?_
    refine Alike.bind (R := fun q q' => q = a * q') (Alike.div ?_ fun h0 => ?_) fun q q' hq => ?_
    · rw [hy, hz, ← mul_add, mul_eq_zero, or_iff_right ha]
    · rw [hy, hz, ← mul_add]
      exact scale_div ha _ _
    · rw [hy, hz, hq, show y * (a * q') = a * y * q' by ring, show z * (a * q') = a * z * q' by ring]
      exact Alike.refl _
  · rintro ⟨M, s⟩ _ rfl
    refine Alike.bind (Alike.refl _) ?_
    rintro M _ rfl
    exact ⟨rfl, hl₁, hr₁⟩

variable [IsStrictOrderedRing K]

theorem affine_le {a : K} (ha : 0 < a) (b x y : K) : a * x + b ≤ a * y + b ↔ x ≤ y := by
  rw [add_le_add_iff_right, mul_le_mul_iff_right₀ ha]

theorem affine_lt {a : K} (ha : 0 < a) (b x y : K) : a * x + b < a * y + b ↔ x < y := by
  rw [add_lt_add_iff_right, mul_lt_mul_iff_right₀ ha]

theorem affine_inj {a : K} (ha : a ≠ 0) (b x y : K) : a * x + b = a * y + b ↔ x = y := by
  rw [add_left_inj, mul_right_inj' ha]

theorem oneBasisFunction_affine {a : K} (ha : 0 < a) (b : K) (p : ℕ) (U : List K) (i : ℕ) (u : K) :
    oneBasisFunction p (U.map fun x => a * x + b) i (a * u + b) = oneBasisFunction p U i u := by
  symm
  apply Alike.eq
  unfold oneBasisFunction
  dsimp only
  rw [List.length_map]
  refine Alike.bind (get_affine a b U _) fun f f' hf => ?_
  refine Alike.bind (get_affine a b U _) fun l l' hl => ?_
  refine Alike.ite ?_ (fun _ => rfl) fun _ => ?_
  · rw [hf, hl, affine_inj ha.ne', affine_inj ha.ne']
  refine Alike.bind (get_affine a b U _) fun x x' hx => ?_
  refine Alike.ite (by rw [hx, affine_lt ha]) (fun _ => rfl) fun _ => ?_
  refine Alike.bind (get_affine a b U _) fun x x' hx => ?_
  refine Alike.ite (by rw [hx, gt_iff_lt, gt_iff_lt, affine_lt ha]) (fun _ => rfl) fun _ => ?_
  refine Alike.bind (R := Eq) ?_ ?_
  · refine Alike.forN (fun _ => Eq) (by omega) rfl ?_
    rintro j N _ - - rfl
    refine Alike.bind (get_affine a b U _) fun x x' hx => ?_
    refine Alike.bind (get_affine a b U _) fun y y' hy => ?_
    exact Alike.ite (by rw [hx, hy, affine_le ha, affine_lt ha]) (fun _ => Alike.refl _) fun _ => rfl
  rintro N _ rfl
  refine Alike.bind (R := Eq) ?_ ?_
  · refine Alike.forN (fun _ => Eq) (by omega) rfl ?_
    rintro k N _ - - rfl
    refine Alike.bind (Alike.refl _) ?_
    rintro n0 _ rfl
    refine Alike.bind (R := Eq) (Alike.ite Iff.rfl (fun _ => ?_) fun _ => rfl) ?_
    · refine Alike.bind (get_affine a b U _) fun x x' hx => ?_
      refine Alike.bind (get_affine a b U _) fun y y' hy => ?_
      refine Alike.div ?_ fun h0 => ?_
      · rw [hx, hy, show a * y + b - (a * x + b) = a * (y - x) by ring, mul_eq_zero, or_iff_right ha.ne']
      · rw [hx, hy, show a * y + b - (a * x + b) = a * (y - x) by ring,
          show (a * u + b - (a * x + b)) * n0 = a * ((u - x) * n0) by ring, mul_div_mul_left _ _ ha.ne']
    rintro sv _ rfl
    refine Alike.bind (R := Eq) ?_ ?_
    · refine Alike.forN (fun _ => Eq) (by omega) rfl ?_
      rintro j ⟨N, sv⟩ _ - - rfl
      refine Alike.bind (get_affine a b U _) fun x x' hx => ?_
      refine Alike.bind (get_affine a b U _) fun y y' hy => ?_
      refine Alike.bind (Alike.refl _) ?_
      rintro nj _ rfl
      refine Alike.ite Iff.rfl (fun _ => Alike.refl _) fun _ => ?_
      refine Alike.bind (R := fun q q' => q = a * q') (Alike.div ?_ fun h0 => ?_) fun q q' hq => ?_
      · rw [hx, hy, show a * y + b - (a * x + b) = a * (y - x) by ring, mul_eq_zero, or_iff_right ha.ne']
      · rw [hx, hy, show a * y + b - (a * x + b) = a * (y - x) by ring]
        exact scale_div ha.ne' _ _
      · rw [hx, hy, hq, show (a * y + b - (a * u + b)) * q' = (y - u) * (a * q') by ring,
          show (a * u + b - (a * x + b)) * q' = (u - x) * (a * q') by ring]
        exact Alike.refl _
    · rintro ⟨N, sv⟩ _ rfl
      rfl
  rintro N _ rfl
  exact Alike.refl _

theorem oneBasisTable_affine {a : K} (ha : 0 < a) (b : K) (p : ℕ) (U : List K) (i : ℕ) (u : K) :
    oneBasisTable p (U.map fun x => a * x + b) i (a * u + b) = oneBasisTable p U i u := by
  symm
  apply Alike.eq
  unfold oneBasisTable
  dsimp only
  refine Alike.bind (R := Eq) ?_ ?_
  · refine Alike.forN (fun _ => Eq) (by omega) rfl ?_
    rintro j N _ - - rfl
    refine Alike.bind (get_affine a b U _) fun x x' hx => ?_
    refine Alike.bind (get_affine a b U _) fun y y' hy => ?_
    exact Alike.ite (by rw [hx, hy, affine_le ha, affine_lt ha]) (fun _ => Alike.refl _) fun _ => rfl
  rintro N _ rfl
  refine Alike.forN (fun _ => Eq) (by omega) rfl ?_
  rintro k N _ - - rfl
  refine Alike.bind (Alike.refl _) ?_
  rintro n0 _ rfl
  refine Alike.bind (R := Eq) (Alike.ite Iff.rfl (fun _ => ?_) fun _ => rfl) ?_
  · refine Alike.bind (get_affine a b U _) fun x x' hx => ?_
    refine Alike.bind (get_affine a b U _) fun y y' hy => ?_
    refine Alike.div ?_ fun h0 => ?_
    · rw [hx, hy, show a * y + b - (a * x + b) = a * (y - x) by ring, mul_eq_zero, or_iff_right ha.ne']
    · rw [hx, hy, show a * y + b - (a * x + b) = a * (y - x) by ring,
        show (a * u + b - (a * x + b)) * n0 = a * ((u - x) * n0) by ring, mul_div_mul_left _ _ ha.ne']
  rintro sv _ rfl
  refine Alike.bind (R := Eq) ?_ ?_
  · refine Alike.forN (fun _ => Eq) (by omega) rfl ?_
    rintro j ⟨N, sv⟩ _ - - rfl
    refine Alike.bind (get_affine a b U _) fun x x' hx => ?_
    refine Alike.bind (get_affine a b U _) fun y y' hy => ?_
    refine Alike.bind (Alike.refl _) ?_
    rintro nj _ rfl
    refine Alike.ite Iff.rfl (fun _ => Alike.refl _) fun _ => ?_
    refine Alike.bind (R := fun q q' => q = a * q') (Alike.div ?_ fun h0 => ?_) fun q q' hq => ?_
    · rw [hx, hy, show a * y + b - (a * x + b) = a * (y - x) by ring, mul_eq_zero, or_iff_right ha.ne']
    · rw [hx, hy, show a * y + b - (a * x + b) = a * (y - x) by ring]
      exact scale_div ha.ne' _ _
    · rw [hx, hy, hq, show (a * y + b - (a * u + b)) * q' = (y - u) * (a * q') by ring,
        show (a * u + b - (a * x + b)) * q' = (u - x) * (a * q') by ring]
      exact Alike.refl _
  · rintro ⟨N, sv⟩ _ rfl
    rfl

/-- Dividing by a scaled number. -/
theorem scale_div_pow {a : K} (ha : a ≠ 0) {e : ℕ} {x x' : K} (d : K) (hx : x = a ^ e * x') :
    x / d = a ^ (e + 1) * (x' / (a * d)) := by
  rw [hx, pow_succ, mul_assoc (a ^ e), ← scale_div ha, mul_div_assoc]

theorem oneBasisFunctionDers_affine {a : K} (ha : 0 < a) (b : K) (p : ℕ) (U : List K) (i : ℕ) (u : K) (order : ℕ) :
    Alike (Along fun m x y => x = a ^ m * y) (oneBasisFunctionDers p U i u order)
      (oneBasisFunctionDers p (U.map fun x => a * x + b) i (a * u + b) order) := by
  have hz : ∀ m, Along (fun m x y => x = a ^ m * y) (zeros m) (zeros m : List K) := fun m =>
    Along.replicate _ _ _ fun _ => (mul_zero _).symm
  unfold oneBasisFunctionDers
  dsimp only
  refine Alike.bind (get_affine a b U _) fun x x' hx => ?_
  refine Alike.ite (by rw [hx, affine_lt ha]) (fun _ => hz _) fun _ => ?_
  refine Alike.bind (get_affine a b U _) fun x x' hx => ?_
  refine Alike.ite (by rw [hx, ge_iff_le, ge_iff_le, affine_le ha]) (fun _ => hz _) fun _ => ?_
  rw [oneBasisTable_affine ha]
  refine Alike.bind (Alike.refl _) ?_
  rintro N _ rfl
  refine Alike.bind (Alike.refl _) ?_
  rintro v _ rfl
  refine Alike.bind ((hz _).set_nat _ 0 rfl (S := fun m x y => x = a ^ m * y) (fun _ _ _ _ h => h)
    (by rw [pow_zero, one_mul])) fun d d' hd => ?_
  refine Alike.bind (R := fun (s t : List K × List K) => Along (fun m x y => x = a ^ m * y) s.1 t.1) ?_
    fun s t h => Alike.ok h
  refine (Alike.forN (fun _ (s t : List K × List K) => Along (fun m x y => x = a ^ m * y) s.1 t.1
      ∧ Along (fun _ _ _ => True) s.2 t.2) (by omega)
    ⟨hd, Along.replicate _ _ _ fun _ => trivial⟩ ?_).mono fun s t h => h.1
  rintro k ⟨d, M⟩ ⟨d', M'⟩ hk1 - ⟨hd, hM⟩
  -- the entries of degree `p - k`
  refine Alike.bind (R := Along fun m x y => m ≤ k + 1 - 1 → x = a ^ (1 - 1) * y) ?_ fun M M' hM => ?_
  · refine (Alike.forN (fun j => Along fun m x y => m < j → x = y) (by omega)
      (hM.mono fun _ _ _ _ h => absurd h (Nat.not_lt_zero _)) ?_).mono fun M M' h => h.mono fun m x y h hm => by
        rw [h (by omega), Nat.sub_self, pow_zero, one_mul]
    intro j M M' _ _ hM
    refine Alike.bind (Alike.refl _) ?_
    rintro x _ rfl
    exact hM.set_nat _ j rfl (fun m x y hm h hm' => h (by omega)) fun _ => rfl
  -- the differences
  refine Alike.bind (R := Along fun m x y => m ≤ 0 → x = a ^ k * y) ?_ fun M M' hM => ?_
  · refine (Alike.forN (fun jj => Along fun m x y => m ≤ k + 1 - jj → x = a ^ (jj - 1) * y) (by omega)
      hM ?_).mono fun M M' h => h.mono fun m x y h hm => h (by omega)
    intro jj M M' hjj hjk hM
    obtain ⟨e, rfl⟩ : ∃ e, jj = e + 1 := ⟨jj - 1, by omega⟩
    rw [Nat.add_sub_cancel] at hM
    rw [Nat.add_sub_cancel]
    refine Alike.bind (hM.get_nat _ 0 rfl) fun nd nd' hnd => ?_
    replace hnd := hnd (Nat.zero_le _)
    have hpow : ∀ e, a ^ e ≠ 0 := fun e => pow_ne_zero e ha.ne'
    refine Alike.bind (R := fun s s' => s = a ^ (e + 1) * s') (Alike.ite ?_ (fun _ => ?_) fun _ => ?_)
      fun sv sv' hsv => ?_
    · rw [hnd, Ne, Ne, mul_eq_zero, or_iff_right (hpow e)]
    · refine Alike.bind (get_affine a b U _) fun x x' hx => ?_
      refine Alike.bind (get_affine a b U _) fun y y' hy => ?_
      rw [hx, hy, show a * x + b - (a * y + b) = a * (x - y) by ring]
      refine Alike.div ?_ fun h0 => scale_div_pow ha.ne' _ hnd
      rw [mul_eq_zero, or_iff_right ha.ne']
    · exact (mul_zero _).symm
    refine Alike.bind (R := fun (s t : List K × K) => Along (fun m x y => m ≤ k - e - 1 → x = a ^ (e + 1) * y) s.1 t.1) ?_
      fun s t h => h.mono fun m x y h hm => h (by omega)
    refine (Alike.forN (fun j (s t : List K × K) => s.2 = a ^ (e + 1) * t.2 ∧
        Along (fun m x y => m ≤ k - e → x = a ^ (if m < j then e + 1 else e) * y) s.1 t.1) (by omega)
      ⟨hsv, hM.mono fun m x y h hm => by rw [if_neg (Nat.not_lt_zero _)]; exact h (by omega)⟩ ?_).mono
      fun s t h => h.2.mono fun m x y h hm => by
        have := h (by omega)
        rwa [if_pos (by omega)] at this
    rintro j ⟨M, sv⟩ ⟨M', sv'⟩ - hj ⟨hsv, hM⟩
    dsimp only at hsv hM ⊢
    refine Alike.bind (get_affine a b U _) fun x x' hx => ?_
    refine Alike.bind (get_affine a b U _) fun y y' hy => ?_
    refine Alike.bind (hM.get_nat _ (j + 1) (by push_cast; ring)) fun nj nj' hnj => ?_
    replace hnj := hnj (by omega)
    rw [if_neg (by omega)] at hnj
    have hset : ∀ {v w : K}, v = a ^ (e + 1) * w → Alike (Along fun m x y => m ≤ k - e →
        x = a ^ (if m < j + 1 then e + 1 else e) * y) (pySet M j v) (pySet M' j w) := fun hv =>
      hM.set_nat _ j rfl (fun m x y hm h hm' => by
        rw [h hm', if_congr (show m < j + 1 ↔ m < j by omega) rfl rfl]) fun _ => by rw [if_pos (by omega)]; exact hv
    refine Alike.ite (by rw [hnj, mul_eq_zero, or_iff_right (hpow e)]) (fun _ => ?_) fun _ => ?_
    · refine Alike.bind (hset (by rw [hsv]; ring)) fun M M' hM => ⟨(mul_zero _).symm, hM⟩
    · rw [hx, hy, show a * y + b - (a * x + b) = a * (y - x) by ring]
      refine Alike.bind (Alike.div (R := fun q q' => q = a ^ (e + 1) * q') ?_ fun h0 => scale_div_pow ha.ne' _ hnj)
        fun q q' hq => ?_
      · rw [mul_eq_zero, or_iff_right ha.ne']
      · exact Alike.bind (hset (by rw [hsv, hq]; ring)) fun M M' hM => ⟨hq, hM⟩
  refine Alike.bind (hM.get_nat _ 0 rfl) fun nd nd' hnd => ?_
  refine Alike.bind (hd.set_nat _ k rfl (S := fun m x y => x = a ^ m * y) (fun _ _ _ _ h => h) (hnd le_rfl))
    fun d d' hd => ⟨hd, hM.mono fun _ _ _ _ => trivial⟩

/-- Two related runs of the span search. -/
theorem findSpanWith_affine {a : K} (ha : 0 < a) (b : K) (close close' : K → K → Bool) (fuel n p : ℕ) (u : K) (U : List K)
    (hc : ∀ e, pyGet U (n : ℤ) = .ok e → close' (a * u + b) (a * e + b) = close u e) :
    findSpanWith close' fuel n p (a * u + b) (U.map fun x => a * x + b) = findSpanWith close fuel n p u U := by
  have loop : ∀ fuel low high mid, findSpanLoop (a * u + b) (U.map fun x => a * x + b) fuel low high mid
      = findSpanLoop u U fuel low high mid := by
    intro fuel
    induction fuel with
    | zero => intros; rfl
    | succ f ih =>
      intro low high mid
      symm
      apply Alike.eq
      unfold findSpanLoop
      refine Alike.bind (get_affine a b U _) fun x x' hx => ?_
      refine Alike.ite (by rw [hx, affine_lt ha]) (fun _ => by rw [ih]; exact Alike.refl _) fun _ => ?_
      refine Alike.bind (get_affine a b U _) fun x x' hx => ?_
      exact Alike.ite (by rw [hx, gt_iff_lt, gt_iff_lt, affine_lt ha]) (fun _ => by rw [ih]; exact Alike.refl _)
        fun _ => rfl
  unfold findSpanWith
  have h := get_affine a b U (n : ℤ)
  rcases e : pyGet U (n : ℤ) with er | x <;> rcases e' : pyGet (U.map fun x => a * x + b) (n : ℤ) with er' | x' <;>
    rw [e, e'] at h
  · rw [show er = er' from h]
    rfl
  · exact h.elim
  · exact h.elim
  · rw [ok_bind, ok_bind, show x' = a * x + b from h, hc x e, loop]

open Polynomial Spec

theorem piece_affine {a : K} (ha : a ≠ 0) (b : K) (U : ℕ → K) (k p i : ℕ) :
    piece (fun j => a * U j + b) k p i = (piece U k p i).comp (C a⁻¹ * (X - C b)) := by
  induction p generalizing i with
  | zero => unfold piece; split <;> simp
  | succ p ih =>
    have hC : (C a⁻¹ : K[X]) * C a = 1 := by rw [← C_mul, inv_mul_cancel₀ ha, C_1]
    have key : ∀ x y z : K, C (1 / (a * x + b - (a * y + b))) * (X - C (a * z + b))
        = C (1 / (x - y)) * (C a⁻¹ * (X - C b) - C z) := by
      intro x y z
      rw [show a * x + b - (a * y + b) = a * (x - y) by ring, one_div, mul_inv, C_mul, C_add, C_mul, one_div]
      linear_combination (- C (x - y)⁻¹ * C z) * hC
    have key' : ∀ x y z : K, C (1 / (a * x + b - (a * y + b))) * (C (a * z + b) - X)
        = C (1 / (x - y)) * (C z - C a⁻¹ * (X - C b)) := by
      intro x y z
      rw [← neg_sub X, mul_neg, key, ← neg_sub (C z), mul_neg, neg_neg]
    unfold piece
    rw [ih i, ih (i + 1), key, key']
    simp only [add_comp, mul_comp, sub_comp, C_comp, X_comp]

theorem deriv_affine (c b : K) (m : ℕ) (f : K[X]) :
    deriv m (f.comp (C c * (X - C b))) = C (c ^ m) * (deriv m f).comp (C c * (X - C b)) := by
  unfold deriv
  induction m with
  | zero => simp
  | succ m ih =>
    rw [Function.iterate_succ_apply', Function.iterate_succ_apply', ih, derivative_mul, derivative_C, zero_mul, zero_add,
      derivative_comp]
    rw [show derivative (C c * (X - C b)) = C c by simp, pow_succ, C_mul]
    ring

theorem knotFn_affine {U : List K} (hU : U ≠ []) (a b : K) :
    knotFn (U.map fun x => a * x + b) = fun i => a * knotFn U i + b := by
  funext i
  unfold knotFn
  rw [List.getLastD_eq_getLast?, List.getLastD_eq_getLast?, List.getLast?_map, List.getLast?_eq_getLast_of_ne_nil hU]
  simp only [List.getD_eq_getElem?_getD, List.getElem?_map, Option.map_some, Option.getD_some]
  rcases U[i]? with _ | x <;> rfl

end PySpline
