import Verif.Lemmas.ExtendedChecks
import Verif.Lemmas.Surface

/-!
# Points of curves and surfaces when a basis function is not finite
-/

set_option linter.unusedSectionVars false

namespace PySpline

open Ext Spec

section
variable {K : Type} [Field K] [LinearOrder K] [IsStrictOrderedRing K]

/-- `basis_functions` always returns `p + 1` values when the knots it reads exist. -/
theorem basisFunctionsE_total (U : List (Ext K)) (k p : ℕ) (u : Ext K) (hp : p ≤ k) (hk : k + p < U.length) :
    ∃ N, basisFunctionsE (k : ℤ) u p U = .ok N ∧ N.length = p + 1 := by
  rcases Nat.eq_zero_or_pos p with rfl | h1
  · exact ⟨[1], rfl, rfl⟩
  · obtain ⟨N, hN, hl, -⟩ := basisFunctionsE_absorb (Q := fun _ => True)
      ⟨fun _ _ _ => trivial, fun _ _ _ => trivial, fun _ _ _ => trivial, fun _ _ _ => trivial,
        fun _ _ _ => trivial⟩ U k p u h1 hp hk trivial trivial
    exact ⟨N, hN, hl⟩

theorem one_div_zeroE : (1 : Ext K) / fin 0 = inf false := by
  show (if (0 : K) = 0 then (if (1 : K) = 0 then nan else inf (decide ((1 : K) < 0))) else _) = inf false
  rw [if_pos rfl, if_neg one_ne_zero, decide_eq_false (not_lt.2 zero_le_one)]

theorem fin_mul_infE (x : K) (s : Bool) : (fin x * inf s : Ext K).isFin = false ∧
    (x = 0 → (fin x * inf s : Ext K) = nan) := by
  have e : (fin x * inf s : Ext K) = if x = 0 then nan else inf (decide (x < 0) ^^ s) := rfl
  rw [e]
  refine ⟨?_, fun h => if_pos h⟩
  split_ifs <;> rfl

theorem getD_fin {U : List K} {i : ℕ} (hi : i < U.length) : (U.map fin).getD i 0 = fin (knotFn U i) := by
  rw [getD_lift, knotFn_eq hi, List.getD_eq_getElem?_getD, List.getElem?_eq_getElem hi]
  rfl

/-- On an empty span all basis functions are infinite or NaN. -/
theorem basisFunctionsE_empty {U : List K} {k p : ℕ} {u : K} (hp1 : 1 ≤ p) (hp : p ≤ k)
    (hk : k + p < U.length) (he : knotFn U k = knotFn U (k + 1)) :
    ∃ N, basisFunctionsE (k : ℤ) (fin u) p (U.map fin) = .ok N ∧ N.length = p + 1 ∧
      (∀ x ∈ N, x.isFin = false) ∧ (u = knotFn U k → ∀ x ∈ N, x = nan) := by
  have e1 : ((U.map fin).getD (k + 1) 0 - fin u + (fin u - (U.map fin).getD k 0) : Ext K) = fin 0 := by
    rw [getD_fin (by omega), getD_fin (by omega), ← he]
    show fin _ = fin _
    congr 1
    ring
  have hk' : k + p < (U.map fin).length := by rw [List.length_map]; exact hk
  obtain ⟨N, hN, hl, hq⟩ := basisFunctionsE_absorb absorbing_nonfin (U.map fin) k p (fin u) hp1 hp hk'
    (by
      rw [e1, one_div_zeroE, getD_fin (by omega)]
      exact nonfin_add_right (fin_mul_infE _ _).1 _)
    (by
      rw [e1, one_div_zeroE, getD_fin (by omega)]
      exact (fin_mul_infE _ _).1)
  refine ⟨N, hN, hl, hq, fun hu => ?_⟩
  obtain ⟨N', hN', -, hq'⟩ := basisFunctionsE_absorb absorbing_nan (U.map fin) k p (fin u) hp1 hp hk'
    (by
      rw [e1, one_div_zeroE, getD_fin (by omega)]
      have := (fin_mul_infE (knotFn U (k + 1) - u) false).2 (by rw [← he, hu, sub_self])
      show 0 + fin (knotFn U (k + 1) - u) * inf false = nan
      rw [this, add_nan])
    (by
      rw [e1, one_div_zeroE, getD_fin (by omega)]
      exact (fin_mul_infE (u - knotFn U k) false).2 (by rw [hu, sub_self]))
  rw [hN] at hN'
  rw [Except.ok.inj hN']
  exact hq'

theorem dotE_all {Q : Ext K → Prop} (hQ : Absorbing Q) {a b : List (Ext K)} (hl : a.length = b.length)
    (h0 : 0 < a.length) (h : (∀ x ∈ a, Q x) ∨ ∀ x ∈ b, Q x) : ∃ x, dotE a b = .ok x ∧ Q x := by
  rcases h with h | h
  · refine dotE_absorb_left hQ hl h0 (h _ ?_)
    rw [List.getD_eq_getElem?_getD, List.getElem?_eq_getElem h0]
    exact List.getElem_mem _
  · refine dotE_absorb_right hQ hl h0 (h _ ?_)
    rw [List.getD_eq_getElem?_getD, List.getElem?_eq_getElem (by omega)]
    exact List.getElem_mem _

theorem bilinearE_all {Q : Ext K → Prop} (hQ : Absorbing Q) {bu bv : List (Ext K)} {M : List (List (Ext K))}
    (hu : bu.length = M.length) (hu0 : 0 < bu.length) (hv : (M.headD []).length = bv.length)
    (hv0 : 0 < bv.length) (h : (∀ x ∈ bu, Q x) ∨ ∀ x ∈ bv, Q x) :
    ∃ x, bilinearE bu M bv = .ok x ∧ Q x := by
  unfold bilinearE vecMatE
  rw [if_pos hu, ok_bind]
  have hl : ((List.range (M.headD []).length).map fun j =>
      (List.zipWith (· * ·) bu (M.map fun row => row.getD j 0)).sum).length = bv.length := by
    simpa using hv
  refine dotE_all hQ hl (by rw [hl]; exact hv0) (h.imp (fun h => ?_) id)
  intro x hx
  obtain ⟨j, -, rfl⟩ := List.mem_map.1 hx
  obtain ⟨y, hy, hyQ⟩ := dotE_all hQ (a := bu) (b := M.map fun row => row.getD j 0)
    (by rw [List.length_map, hu]) hu0 (Or.inl h)
  unfold dotE at hy
  rw [if_pos (by rw [List.length_map, hu])] at hy
  rw [Except.ok.inj hy]
  exact hyQ

theorem validateKnotE_fin {u : K} (h : 0 ≤ u ∧ u ≤ 1) : ¬ validateKnotE (fin u) = false := by
  rw [validateKnotE_lift, (validateKnot_iff u).2 h]
  simp

/-- A curve point when all basis functions have an absorbing property. -/
theorem singlePointE_absorb {Q : Ext K → Prop} (hQ : Absorbing Q) {p n d m : ℕ} {U : List K}
    {P : List (List K)} {u : K} (hP : Shape P n d) (hd : 3 ≤ d) (h01 : 0 ≤ u ∧ u ≤ 1)
    (hspan : findSpanE n p (fin u) (U.map fin) = .ok (m : ℤ)) (hpm : p ≤ m) (hmn : m < n)
    {N : List (Ext K)} (hN : basisFunctionsE (m : ℤ) (fin u) p (U.map fin) = .ok N) (hl : N.length = p + 1)
    (hq : ∀ x ∈ N, Q x) :
    ∃ x y z, (Curve.lift ⟨p, P, U⟩).singlePointE (fin u) = .ok [x, y, z] ∧ Q x ∧ Q y ∧ Q z := by
  unfold Curve.singlePointE
  rw [if_neg (validateKnotE_fin h01)]
  show ∃ x y z, (findSpanE (lift2 P).length p (fin u) (lift1 U) >>= _) = _ ∧ _
  rw [List.length_map, hP.1, hspan, ok_bind]
  show ∃ x y z, (basisFunctionsE (m : ℤ) (fin u) p (lift1 U) >>= _) = _ ∧ _
  rw [hN, ok_bind]
  have hact : pySlice (lift2 P) ((m : ℤ) - p) ((m : ℤ) + 1)
      = lift2 ((List.range (p + 1)).map fun r => P.getD (m - p + r) []) := by
    rw [pySlice_map, pySlice_nat P _ _ (m - p) (p + 1) [] (by omega) (by omega) (by rw [hP.1]; omega)]
  have hc : ∀ c < 3, ∀ r < p + 1, c < (P.getD (m - p + r) []).length := fun c hc r hr => by
    rw [hP.row (by omega)]; omega
  have col : ∀ (c : ℕ) (ci : ℤ), ci = c → c < 3 →
      columnE (lift2 ((List.range (p + 1)).map fun r => P.getD (m - p + r) [])) ci
        = .ok (lift1 ((List.range (p + 1)).map fun r => coord P c (m - p + r))) := fun c ci h1 h2 =>
    (columnE_follows _ ci).value (column_rows P _ _ c ci h1 (hc c h2))
  have dt : ∀ c : ℕ, ∃ x, dotE N (lift1 ((List.range (p + 1)).map fun r => coord P c (m - p + r))) = .ok x ∧
      Q x := fun c => dotE_all hQ (by simp [hl]) (by omega) (Or.inl hq)
  obtain ⟨x, hx, qx⟩ := dt 0
  obtain ⟨y, hy, qy⟩ := dt 1
  obtain ⟨z, hz, qz⟩ := dt 2
  refine ⟨x, y, z, ?_, qx, qy, qz⟩
  show (columnE (pySlice (lift2 P) ((m : ℤ) - p) ((m : ℤ) + 1)) 0 >>= _) = _
  dsimp only [Curve.lift]
  rw [hact, col 0 0 rfl (by omega), ok_bind, hx, ok_bind, col 1 1 rfl (by omega), ok_bind, hy, ok_bind,
    col 2 2 rfl (by omega), ok_bind, hz, ok_bind]

/-- A surface point when all basis functions of one direction have an absorbing property. -/
theorem surfacePointE_absorb {Q : Ext K → Prop} (hQ : Absorbing Q) {s : Surface K} (hs : SurfaceOk s)
    {u v : K} {m k : ℕ} (hu : 0 ≤ u ∧ u ≤ 1) (hv : 0 ≤ v ∧ v ≤ 1)
    (hm : findSpanE s.numU s.degreeU (fin u) (s.kvU.map fin) = .ok (m : ℤ)) (hm1 : s.degreeU ≤ m)
    (hm2 : m < s.numU)
    (hk : findSpanE s.numV s.degreeV (fin v) (s.kvV.map fin) = .ok (k : ℤ)) (hk1 : s.degreeV ≤ k)
    (hk2 : k < s.numV) {M N : List (Ext K)}
    (hM : basisFunctionsE (m : ℤ) (fin u) s.degreeU (s.kvU.map fin) = .ok M) (hMl : M.length = s.degreeU + 1)
    (hN : basisFunctionsE (k : ℤ) (fin v) s.degreeV (s.kvV.map fin) = .ok N) (hNl : N.length = s.degreeV + 1)
    (hq : (∀ x ∈ M, Q x) ∨ ∀ x ∈ N, Q x) :
    ∃ x y z, s.lift.singlePointE (fin u) (fin v) = .ok [x, y, z] ∧ Q x ∧ Q y ∧ Q z := by
  unfold Surface.singlePointE
  rw [if_neg (validateKnotE_fin hu), if_neg (validateKnotE_fin hv)]
  dsimp only [Surface.lift]
  rw [hm, ok_bind, hk, ok_bind, hM, ok_bind, hN, ok_bind]
  have col : ∀ (c : ℕ) (ci : ℤ), ci = c → c < 3 →
      columnE (lift2 s.ctrlpts) ci = .ok (lift1 ((List.range (s.numU * s.numV)).map (coord s.ctrlpts c))) :=
    fun c ci h1 h2 => (columnE_follows _ ci).value (column_all hs.shape ci c h1 h2)
  have rs : ∀ c, reshape2E (lift1 ((List.range (s.numU * s.numV)).map (coord s.ctrlpts c))) s.numU s.numV
      = .ok (lift2 ((List.range s.numU).map fun i => (List.range s.numV).map fun j =>
        coord s.ctrlpts c (i * s.numV + j))) := fun c =>
    (reshape2E_follows _ _ _).value (reshape2_map_range _ _ _)
  have hsl : ∀ c, slice2E (lift2 ((List.range s.numU).map fun i => (List.range s.numV).map fun j =>
        coord s.ctrlpts c (i * s.numV + j))) ((m : ℤ) - s.degreeU) ((m : ℤ) + 1)
        ((k : ℤ) - s.degreeV) ((k : ℤ) + 1)
      = lift2 ((List.range (s.degreeU + 1)).map fun i => (List.range (s.degreeV + 1)).map fun j =>
        coord s.ctrlpts c ((m - s.degreeU + i) * s.numV + (k - s.degreeV + j))) := fun c => by
    rw [slice2E_lift]
    exact congrArg lift2 (slice2_map_range (fun i j => coord s.ctrlpts c (i * s.numV + j)) (by omega)
      (by omega) (by omega) (by omega) (by omega) (by omega))
  have bl : ∀ c, ∃ x, bilinearE M (lift2 ((List.range (s.degreeU + 1)).map fun i =>
      (List.range (s.degreeV + 1)).map fun j =>
        coord s.ctrlpts c ((m - s.degreeU + i) * s.numV + (k - s.degreeV + j)))) N = .ok x ∧ Q x := fun c =>
    bilinearE_all hQ (by simp [hMl]) (by omega)
      (by rw [List.range_succ_eq_map (n := s.degreeU)]; simp [hNl]) (by omega) hq
  obtain ⟨x, hx, qx⟩ := bl 0
  obtain ⟨y, hy, qy⟩ := bl 1
  obtain ⟨z, hz, qz⟩ := bl 2
  refine ⟨x, y, z, ?_, qx, qy, qz⟩
  rw [col 0 0 rfl (by omega), ok_bind, col 1 1 rfl (by omega), ok_bind, col 2 2 rfl (by omega), ok_bind,
    rs, ok_bind, rs, ok_bind, rs, ok_bind, hsl, hsl, hsl, hx, ok_bind, hy, ok_bind, hz, ok_bind]

/-! ## Normalization, and the recursions on zeros -/

theorem foldl_absorb {α : Type} {Q : α → Prop} {op : α → α → α} (hl : ∀ a b, Q a → Q (op a b))
    (hr : ∀ a b, Q b → Q (op a b)) {x : α} (hx : Q x) : ∀ (l : List α) (a : α), Q a ∨ x ∈ l → Q (l.foldl op a) := by
  intro l
  induction l with
  | nil => intro a h; exact h.resolve_right (by simp)
  | cons y ys ih =>
    intro a h
    rw [List.foldl_cons]
    rcases h with h | h
    · exact ih _ (Or.inl (hl _ _ h))
    · rcases List.mem_cons.1 h with e | e
      · exact ih _ (Or.inl (hr _ _ (e ▸ hx)))
      · exact ih _ (Or.inr e)

theorem max2_top (a b : Ext K) (h : (a = nan ∨ a = inf false) ∨ b = nan ∨ b = inf false) :
    max2 a b = nan ∨ max2 a b = inf false := by
  unfold max2
  rcases h with (rfl | rfl) | rfl | rfl
  · exact Or.inl (if_pos rfl)
  · rw [if_neg (by simp)]
    split_ifs with h1 h2
    · exact Or.inl rfl
    · cases b with
      | fin x => exact Bool.noConfusion (h2 : false = true)
      | inf s => exact Bool.noConfusion (h2 : false = true)
      | nan => exact absurd rfl h1
    · exact Or.inr rfl
  · left
    split_ifs <;> first | rfl | contradiction
  · rw [if_neg (c := (inf false : Ext K) = nan) (by simp)]
    split_ifs with h1 h2
    · exact Or.inl rfl
    · exact Or.inr rfl
    · cases a with
      | fin x => exact absurd (rfl : lt (fin x) (inf false) = true) h2
      | inf s => cases s with
        | true => exact absurd (rfl : lt (inf true : Ext K) (inf false) = true) h2
        | false => exact Or.inr rfl
      | nan => exact absurd rfl h1

theorem min2_bot (a b : Ext K) (h : (a = nan ∨ a = inf true) ∨ b = nan ∨ b = inf true) :
    min2 a b = nan ∨ min2 a b = inf true := by
  unfold min2
  rcases h with (rfl | rfl) | rfl | rfl
  · exact Or.inl (if_pos rfl)
  · rw [if_neg (by simp)]
    split_ifs with h1 h2
    · exact Or.inl rfl
    · cases b with
      | fin x => exact Bool.noConfusion (h2 : false = true)
      | inf s => cases s <;> exact Bool.noConfusion (h2 : false = true)
      | nan => exact absurd rfl h1
    · exact Or.inr rfl
  · left
    split_ifs <;> first | rfl | contradiction
  · rw [if_neg (c := (inf true : Ext K) = nan) (by simp)]
    split_ifs with h1 h2
    · exact Or.inl rfl
    · exact Or.inr rfl
    · cases a with
      | fin x => exact absurd (rfl : lt (inf true) (fin x) = true) h2
      | inf s => cases s with
        | false => exact absurd (rfl : lt (inf true : Ext K) (inf false) = true) h2
        | true => exact Or.inr rfl
      | nan => exact absurd rfl h1

/-- One knot that is not finite: every normalized knot is `0` or NaN. -/
theorem normalizeE_nonfin {U : List (Ext K)} {x : Ext K} (hx : x ∈ U) (h : x.isFin = false) :
    ∃ W, normalizeE U = .ok W ∧ W.length = U.length ∧ ∀ y ∈ W, y = 0 ∨ y = nan := by
  obtain ⟨a, as, rfl⟩ := List.exists_cons_of_ne_nil (List.ne_nil_of_mem hx)
  have hx' : x = a ∨ x ∈ as := List.mem_cons.1 hx
  unfold normalizeE npMaxE npMinE divE
  rw [ok_bind, ok_bind, ok_bind]
  refine ⟨_, rfl, by simp, ?_⟩
  set M := as.foldl max2 a
  set m := as.foldl min2 a
  have hMm : (M - m).isFin = false := by
    have top : x = nan ∨ x = inf false → (M - m).isFin = false := fun hq => by
      refine nonfin_sub_left ?_ _
      have : M = nan ∨ M = inf false := foldl_absorb (Q := fun y : Ext K => y = nan ∨ y = inf false) (fun a b h => max2_top a b (Or.inl h))
        (fun a b h => max2_top a b (Or.inr h)) hq as a (hx'.imp (fun e => by rw [← e]; exact hq) id)
      rcases this with e | e <;> rw [e] <;> rfl
    have bot : x = inf true → (M - m).isFin = false := fun hq => by
      refine nonfin_sub_right ?_ _
      have : m = nan ∨ m = inf true := foldl_absorb (Q := fun y : Ext K => y = nan ∨ y = inf true) (fun a b h => min2_bot a b (Or.inl h))
        (fun a b h => min2_bot a b (Or.inr h)) (Or.inr hq) as a (hx'.imp (fun e => by rw [← e]; exact Or.inr hq) id)
      rcases this with e | e <;> rw [e] <;> rfl
    cases x with
    | fin y => exact Bool.noConfusion (h : true = false)
    | inf s => cases s with
      | true => exact bot rfl
      | false => exact top (Or.inr rfl)
    | nan => exact top (Or.inl rfl)
  have hf : (1 : Ext K) / (M - m) = 0 ∨ (1 : Ext K) / (M - m) = nan := by
    generalize M - m = D at hMm
    rcases D with y | s | _
    · exact Bool.noConfusion (hMm : true = false)
    · exact Or.inl rfl
    · exact Or.inr rfl
  intro y hy
  obtain ⟨t, -, rfl⟩ := List.mem_map.1 hy
  rcases hf with e | e
  · rw [e]
    cases t with
    | fin z =>
      left
      show fin (z * 0) = fin 0
      rw [mul_zero]
    | inf s =>
      right
      show (if (0 : K) = 0 then nan else _) = nan
      rw [if_pos rfl]
    | nan => exact Or.inr rfl
  · rw [e, mul_nan]
    exact Or.inr rfl

theorem forN_fix {σ : Type} {a b : ℕ} {s : σ} {f : ℕ → σ → Py σ} (h : ∀ i, a ≤ i → i < b → f i s = .ok s) :
    forN a b s f = .ok s := by
  rcases Nat.lt_or_ge b a with hab | hab
  · exact forN_empty hab.le _ _
  obtain ⟨t, ht, hts⟩ := Returns.forN (fun _ t => t = s) (f := f) hab rfl
    (fun i t h1 h2 e => ⟨s, by rw [e]; exact h i h1 h2, rfl⟩)
  rw [ht, hts]

theorem pyGet_zerosE {n j : ℕ} {z : ℤ} (hz : z = j) (hj : j < n) :
    pyGet (List.replicate n (0 : Ext K)) z = .ok 0 := by
  rw [pyGet_nat _ _ j 0 hz (by simpa using hj)]
  simp [List.getD_eq_getElem?_getD, hj]

theorem pySet_zerosE {n j : ℕ} {z : ℤ} (hz : z = j) (hj : j < n) :
    pySet (List.replicate n (0 : Ext K)) z 0 = .ok (List.replicate n 0) := by
  rw [pySet_nat _ _ j _ hz (by simpa using hj), List.set_replicate_self]

theorem get2_zerosE {n m a b : ℕ} {y z : ℤ} (hy : y = a) (hz : z = b) (ha : a < n) (hb : b < m) :
    get2 (zeros2E n m : List (List (Ext K))) y z = .ok 0 := by
  unfold get2 zeros2E
  rw [pyGet_nat _ _ a [] hy (by simpa using ha), ok_bind]
  simp only [List.getD_eq_getElem?_getD, List.getElem?_replicate, ha, if_true, Option.getD_some]
  exact pyGet_zerosE hz hb

theorem set2_zerosE {n m a b : ℕ} {y z : ℤ} (hy : y = a) (hz : z = b) (ha : a < n) (hb : b < m) :
    set2 (zeros2E n m : List (List (Ext K))) y z 0 = .ok (zeros2E n m) := by
  unfold set2 zeros2E
  rw [pyGet_nat _ _ a [] hy (by simpa using ha), ok_bind]
  simp only [List.getD_eq_getElem?_getD, List.getElem?_replicate, ha, if_true, Option.getD_some]
  rw [pySet_zerosE hz hb, ok_bind, pySet_nat _ _ a _ hy (by simpa using ha), List.set_replicate_self]

theorem eqv_zero_zero : eqv (0 : Ext K) 0 = true := (eqv_lift (0 : K) 0).2 rfl

end

end PySpline
