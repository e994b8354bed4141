import Verif.Lemmas.IeeeMesh
import Verif.Props.IeeeAdaptiveSession

/-!
# C196: meshes of the surfaces of sessions in IEEE arithmetic
-/

set_option linter.unusedSectionVars false
set_option exponentiation.threshold 1100

namespace PySpline

open Spec Ext

/-- **C196.** Every surface has an implementation of `single_point` in the sense of `Computes`. -/
theorem computes_exists (s : Surface (Ext ℚ)) : ∃ single, Computes bin64 s single := by
  classical
  refine ⟨fun u v => if h : ∃ q : List ℚ, s.PointR bin64 (fin u) (fin v) (q.map fin) then .ok h.choose else .error .valueError,
    fun u v q h => ?_, fun u v ⟨pt, hpt⟩ hall => ?_⟩
  · split at h
    · next hq => cases h; exact hq.choose_spec
    · cases h
  · obtain ⟨q, rfl⟩ := hall pt hpt
    exact ⟨_, dif_pos ⟨q, hpt⟩⟩

/-- **C196.** `surf_to_vtk` in double precision with `n_tri` at most `2^50`, for a surface that evaluates to numbers of size at
most `M` and at its corners to `sb`, `eb`, `st` and `et` up to `ε`: the sampling loop returns if and only if the numbers of
parameters and of rows come out as `n_tri + 1`, which depends on `n_tri` alone. What it returns then has `(n_tri + 1)^2` rows of
five numbers: possible results of `single_point` of size at most `M` and the parameters they belong to, which are equally spaced
up to `2^-51`; the first row is `sb` up to `ε`, and if the last parameter comes out as one, the other corners of the mesh
are `st`, `eb` and `et` up to `ε`. -/
theorem mesh_binary64 {n : ℕ} (hn : 1 ≤ n) (hn' : n ≤ 2 ^ 50) {M ε : ℚ} {sb eb st et : List ℚ} {s : Surface (Ext ℚ)}
    (hE : EvaluatesTo bin64 M ε sb eb st et s) {single : ℚ → ℚ → Py (List ℚ)} (hc : Computes bin64 s single) :
    ((∃ rows, vtkSamplesFl fl64 single n = .ok rows) ↔ vtkLen n = n + 1 ∧ vtkSize n = n + 1) ∧
    ∀ rows, vtkSamplesFl fl64 single n = .ok rows → Shape rows ((n + 1) * (n + 1)) 5 ∧
      (∀ i ≤ n, ∀ j ≤ n, ∃ u v,
        (rows.getD (i * (n + 1) + j) []).drop 3 = [u, v] ∧ |u - (i : ℚ) / n| ≤ 1 / 2 ^ 51 ∧ |v - (j : ℚ) / n| ≤ 1 / 2 ^ 51 ∧
        s.PointR bin64 (fin u) (fin v) (((rows.getD (i * (n + 1) + j) []).take 3).map fin) ∧
        ∀ k < 3, |coord rows k (i * (n + 1) + j)| ≤ M) ∧
      ∀ k < 3, |coord rows k 0 - sb.getD k 0| ≤ ε ∧ (vtkParam n n = 1 →
        |coord rows k n - st.getD k 0| ≤ ε ∧ |coord rows k (n * (n + 1)) - eb.getD k 0| ≤ ε ∧
        |coord rows k (n * (n + 1) + n) - et.getD k 0| ≤ ε) := by
  classical
  obtain ⟨p0, hp, -, -⟩ := vtk_param hn hn'
  have hst := fun i hi => vtkParam_stored hn hn' (i := i) hi
  have hE' := fun i hi j hj => hE _ _ (hp i hi) (hp j hj) (hst i hi) (hst j hj)
  let f : ℚ → ℚ → List ℚ := fun u v => match single u v with
    | .ok q => if q.length = 3 then q else [0, 0, 0]
    | .error _ => [0, 0, 0]
  have h3 : ∀ u v, (f u v).length = 3 := by
    intro u v
    dsimp only [f]
    split
    · split
      · assumption
      · rfl
    · rfl
  have hf : ∀ i ≤ n, ∀ j ≤ n, single (vtkParam n i) (vtkParam n j) = .ok (f (vtkParam n i) (vtkParam n j)) := by
    intro i hi j hj
    obtain ⟨ex, all⟩ := hE' i hi j hj
    obtain ⟨q, hq⟩ := hc.returns _ _ ex fun pt h => (all pt h).imp fun w hw => hw.1
    obtain ⟨w, e, l, -⟩ := all _ (hc.sound _ _ _ hq)
    have hl : q.length = 3 := by rw [← l, ← List.length_map (f := fin) (as := q), e, List.length_map]
    dsimp only [f]
    rw [hq]
    dsimp only
    rw [if_pos hl]
  have key : ∀ i ≤ n, ∀ j ≤ n, s.PointR bin64 (fin (vtkParam n i)) (fin (vtkParam n j))
        ((f (vtkParam n i) (vtkParam n j)).map fin) ∧
      ∀ k < 3, |(f (vtkParam n i) (vtkParam n j)).getD k 0| ≤ M ∧
        (vtkParam n i = 0 → vtkParam n j = 0 → |(f (vtkParam n i) (vtkParam n j)).getD k 0 - sb.getD k 0| ≤ ε) ∧
        (vtkParam n i = 1 → vtkParam n j = 0 → |(f (vtkParam n i) (vtkParam n j)).getD k 0 - eb.getD k 0| ≤ ε) ∧
        (vtkParam n i = 0 → vtkParam n j = 1 → |(f (vtkParam n i) (vtkParam n j)).getD k 0 - st.getD k 0| ≤ ε) ∧
        (vtkParam n i = 1 → vtkParam n j = 1 → |(f (vtkParam n i) (vtkParam n j)).getD k 0 - et.getD k 0| ≤ ε) := by
    intro i hi j hj
    have hs := hc.sound _ _ _ (hf i hi j hj)
    obtain ⟨w, e, -, hw⟩ := (hE' i hi j hj).2 _ hs
    have e' : f (vtkParam n i) (vtkParam n j) = w := List.map_injective_iff.2 (fun a b h => by cases h; rfl) e
    rw [e']
    exact ⟨e' ▸ hs, hw⟩
  have hrow : vtkLen n = n + 1 ∧ vtkSize n = n + 1 → vtkSamplesFl fl64 single n = .ok
      ((List.range ((n + 1) * (n + 1))).map fun x => f (vtkParam n (x / (n + 1))) (vtkParam n (x % (n + 1)))
        ++ [vtkParam n (x / (n + 1)), vtkParam n (x % (n + 1))]) := fun h => vtk_double_grid hn h.1 h.2 hf h3
  have hiff : (∃ rows, vtkSamplesFl fl64 single n = .ok rows) ↔ vtkLen n = n + 1 ∧ vtkSize n = n + 1 := by
    refine ⟨fun ⟨rows, h⟩ => ?_, fun h => ⟨_, hrow h⟩⟩
    rcases vtk_len hn hn' with hl | hl
    · rcases vtk_size hn hn' with hz | hz
      · rw [vtk_double_overflow hn hl hz hf h3] at h
        cases h
      · exact ⟨hl, hz⟩
    · obtain ⟨e, he⟩ := vtk_double_beyond hn hn' hl (fun u v hv => computes_beyond hc u v hv)
      rw [he] at h
      cases h
  refine ⟨hiff, fun rows h => ?_⟩
  rw [hrow (hiff.1 ⟨rows, h⟩)] at h
  cases h
  have hget : ∀ i ≤ n, ∀ j ≤ n, ((List.range ((n + 1) * (n + 1))).map fun x =>
      f (vtkParam n (x / (n + 1))) (vtkParam n (x % (n + 1)))
        ++ [vtkParam n (x / (n + 1)), vtkParam n (x % (n + 1))]).getD (i * (n + 1) + j) []
      = f (vtkParam n i) (vtkParam n j) ++ [vtkParam n i, vtkParam n j] := by
    intro i hi j hj
    have hx : i * (n + 1) + j < (n + 1) * (n + 1) := index_lt (by omega) (by omega)
    have e1 : (i * (n + 1) + j) / (n + 1) = i := by
      rw [Nat.mul_comm, Nat.mul_add_div (by omega), Nat.div_eq_of_lt (by omega), Nat.add_zero]
    have e2 : (i * (n + 1) + j) % (n + 1) = j := by
      rw [Nat.mul_comm, Nat.mul_add_mod, Nat.mod_eq_of_lt (by omega)]
    rw [List.getD_eq_getElem?_getD, List.getElem?_eq_getElem (by simpa using hx), Option.getD_some, List.getElem_map,
      List.getElem_range, e1, e2]
  have hco : ∀ i ≤ n, ∀ j ≤ n, ∀ k < 3, coord ((List.range ((n + 1) * (n + 1))).map fun x =>
      f (vtkParam n (x / (n + 1))) (vtkParam n (x % (n + 1)))
        ++ [vtkParam n (x / (n + 1)), vtkParam n (x % (n + 1))]) k (i * (n + 1) + j)
      = (f (vtkParam n i) (vtkParam n j)).getD k 0 := by
    intro i hi j hj k hk
    unfold coord
    rw [hget i hi j hj, List.getD_eq_getElem?_getD, List.getElem?_append_left (by rw [h3]; exact hk),
      ← List.getD_eq_getElem?_getD]
  refine ⟨⟨by simp, fun row hr => ?_⟩, fun i hi j hj => ⟨vtkParam n i, vtkParam n j, ?_, vtkParam_near hn hi,
    vtkParam_near hn hj, ?_, fun k hk => ?_⟩, fun k hk => ⟨?_, fun h1 => ⟨?_, ?_, ?_⟩⟩⟩
  · obtain ⟨x, -, rfl⟩ := List.mem_map.1 hr
    simp [h3]
  · rw [hget i hi j hj, List.drop_left' (h3 _ _)]
  · rw [hget i hi j hj, List.take_left' (h3 _ _)]
    exact (key i hi j hj).1
  · rw [hco i hi j hj k hk]
    exact ((key i hi j hj).2 k hk).1
  · have := hco 0 (by omega) 0 (by omega) k hk
    rw [Nat.zero_mul, Nat.zero_add] at this
    rw [this]
    exact ((key 0 (by omega) 0 (by omega)).2 k hk).2.1 p0 p0
  · have := hco 0 (by omega) n le_rfl k hk
    rw [Nat.zero_mul, Nat.zero_add] at this
    rw [this]
    exact ((key 0 (by omega) n le_rfl).2 k hk).2.2.2.1 p0 h1
  · have := hco n le_rfl 0 (by omega) k hk
    rw [show n * (n + 1) = n * (n + 1) + 0 from rfl, this]
    exact ((key n le_rfl 0 (by omega)).2 k hk).2.2.1 h1 p0
  · rw [hco n le_rfl n le_rfl k hk]
    exact ((key n le_rfl n le_rfl).2 k hk).2.2.2.2 h1 h1

/-- **C196.** The mesh of the default size `n_tri = 100`: it is always returned, with `101^2` rows, and its four corners are
`sb`, `st`, `eb` and `et` up to `ε`. -/
theorem mesh_default_binary64 {M ε : ℚ} {sb eb st et : List ℚ} {s : Surface (Ext ℚ)}
    (hE : EvaluatesTo bin64 M ε sb eb st et s) {single : ℚ → ℚ → Py (List ℚ)} (hc : Computes bin64 s single) :
    ∃ rows, vtkSamplesFl fl64 single 100 = .ok rows ∧ Shape rows 10201 5 ∧
      (∀ x < 10201, ∀ k < 3, |coord rows k x| ≤ M) ∧
      ∀ k < 3, |coord rows k 0 - sb.getD k 0| ≤ ε ∧ |coord rows k 100 - st.getD k 0| ≤ ε ∧
        |coord rows k 10100 - eb.getD k 0| ≤ ε ∧ |coord rows k 10200 - et.getD k 0| ≤ ε := by
  obtain ⟨h1, h2⟩ := mesh_binary64 (n := 100) (by norm_num) (by norm_num) hE hc
  obtain ⟨rows, hr⟩ := h1.2 vtk_double_cases.2.1
  obtain ⟨sh, hb, hk⟩ := h2 rows hr
  refine ⟨rows, hr, sh, fun x hx k hk => ?_, fun k hk' => ?_⟩
  · obtain ⟨u, v, _, _, _, _, h⟩ := hb (x / 101) (by omega) (x % 101) (by omega)
    have := h k hk
    rwa [show x / 101 * (100 + 1) + x % 101 = x by omega] at this
  · have h := hk k hk'
    exact ⟨h.1, (h.2 (by decide +kernel)).1, (h.2 (by decide +kernel)).2.1, (h.2 (by decide +kernel)).2.2⟩

section
variable {E : Err → Prop} {cinv : Curve (Ext ℚ) → List (Ext ℚ) → Py (Ext ℚ)}
  {sinv : Surface (Ext ℚ) → List (Ext ℚ) → Py (Ext ℚ × Ext ℚ)}

/-- **C196.** The surface at the end of a session in double precision, meshed in double precision by `surf_to_vtk` with the
default number of intervals: the mesh is returned, all of its coordinates have size at most `2 B + B 2^-44`, and its four corners
are the four end points that were given to the two boundary problems up to `B 2^-44`. -/
theorem session_mesh_binary64 {B : ℚ} (hB0 : 1 / 2 ^ 1000 ≤ B) (hB1 : 2 * B ≤ 2 ^ 1000)
    {ls : ℕ → List (List (Ext ℚ)) → List (Ext ℚ) → Py (List (Ext ℚ))}
    (hls : TameSolver bin64 (2 ^ 1023) B E ls)
    (hcI : TameCurveInversion bin64 E cinv) (hsI : TameSurfaceInversion bin64 E sinv)
    {st et sb eb : List ℚ} (hst : st.length = 3) (het : et.length = 3) (hsb : sb.length = 3) (heb : eb.length = 3)
    (hends : ∀ x ∈ st ++ et ++ sb ++ eb, bin64 x = fin x ∧ |x| ≤ B) {dt db data : List (List ℚ)}
    (h3 : ∀ pt ∈ dt ++ db ++ data, pt.length = 3)
    (hdata : ∀ pt ∈ dt ++ db ++ data, ∀ x ∈ pt, bin64 x = fin x ∧ |x| ≤ B) {p n q m fuel : ℕ} (hp : 1 ≤ p) (hp5 : p ≤ 5)
    (hpn : p < n) (hn : 3 < n) (hn' : n ≤ 2 ^ 19) (hq : 1 ≤ q) (hq5 : q ≤ 5) (hqm : q < m) (hm : m ≤ 2 ^ 19) (hf : 0 < fuel)
    (hsize : 200 + n * m + dt.length + db.length + data.length ≤ 10 ^ 8) {t b : Fitted (Ext ℚ)} {s : Surface (Ext ℚ)}
    {rows : List (List (Ext ℚ))}
    (ht : BoundaryFitR bin64 fuel ls cinv false (lift1 st) (lift1 et) p n (lift2 dt) (.ok t))
    (hb : BoundaryFitR bin64 fuel ls cinv false (lift1 sb) (lift1 eb) p n (lift2 db) (.ok b))
    (hs : InteriorFitR bin64 ls sinv t b q m (lift2 data) (.ok (s, rows)))
    {single : ℚ → ℚ → Py (List ℚ)} (hc : Computes bin64 s single) :
    ∃ mesh, vtkSamplesFl fl64 single 100 = .ok mesh ∧ Shape mesh 10201 5 ∧
      (∀ x < 10201, ∀ k < 3, |coord mesh k x| ≤ 2 * B + B / 2 ^ 44) ∧
      ∀ k < 3, |coord mesh k 0 - sb.getD k 0| ≤ B / 2 ^ 44 ∧ |coord mesh k 100 - st.getD k 0| ≤ B / 2 ^ 44 ∧
        |coord mesh k 10100 - eb.getD k 0| ≤ B / 2 ^ 44 ∧ |coord mesh k 10200 - et.getD k 0| ≤ B / 2 ^ 44 :=
  mesh_default_binary64 (fun _ _ hu hv hu' hv' => session_with_evaluates_binary64 hB0 hB1 hls hcI hsI hst het hsb heb hends h3
    hdata hp hp5 hpn hn hn' hq hq5 hqm hm hf hsize ht hb hs hu hv hu' hv') hc

/-- **C196.** The same for sessions with the adaptive method. -/
theorem adaptive_session_mesh_binary64 {B : ℚ} (hB0 : 1 / 2 ^ 1000 ≤ B) (hB1 : 2 * B ≤ 2 ^ 1000)
    {ls : ℕ → List (List (Ext ℚ)) → List (Ext ℚ) → Py (List (Ext ℚ))}
    (hls : TameSolver bin64 (2 ^ 1023) B E ls)
    (hcI : TameCurveInversion bin64 E cinv) (hsI : TameSurfaceInversion bin64 E sinv)
    {st et sb eb : List ℚ} (hst : st.length = 3) (het : et.length = 3) (hsb : sb.length = 3) (heb : eb.length = 3)
    (hends : ∀ x ∈ st ++ et ++ sb ++ eb, bin64 x = fin x ∧ |x| ≤ B) {dt db data : List (List ℚ)}
    (h3 : ∀ pt ∈ dt ++ db ++ data, pt.length = 3)
    (hdata : ∀ pt ∈ dt ++ db ++ data, ∀ x ∈ pt, bin64 x = fin x ∧ |x| ≤ B) {p N t q m fuel : ℕ} (hp : 1 ≤ p) (hp5 : p ≤ 5)
    (ht : t ≤ 15) (hN : N ≤ p + 2 ^ t) (hlt : ∀ i < t, p + 2 ^ i < N) (hn : 3 < p + 2 ^ t) (hq : 1 ≤ q) (hq5 : q ≤ 5)
    (hqm : q < m) (hm : m ≤ 2 ^ 19) (hf : t < fuel) (hsize : 200 + (p + 2 ^ t) * m + data.length ≤ 10 ^ 8)
    (hsize' : dt.length + db.length ≤ 10 ^ 7) {tb bb : Fitted (Ext ℚ)} {s : Surface (Ext ℚ)} {rows : List (List (Ext ℚ))}
    (hrt : BoundaryFitR bin64 fuel ls cinv true (lift1 st) (lift1 et) p N (lift2 dt) (.ok tb))
    (hrb : BoundaryFitR bin64 fuel ls cinv true (lift1 sb) (lift1 eb) p N (lift2 db) (.ok bb))
    (hs : InteriorFitR bin64 ls sinv tb bb q m (lift2 data) (.ok (s, rows)))
    {single : ℚ → ℚ → Py (List ℚ)} (hc : Computes bin64 s single) :
    ∃ mesh, vtkSamplesFl fl64 single 100 = .ok mesh ∧ Shape mesh 10201 5 ∧
      (∀ x < 10201, ∀ k < 3, |coord mesh k x| ≤ 2 * B + B / 2 ^ 44) ∧
      ∀ k < 3, |coord mesh k 0 - sb.getD k 0| ≤ B / 2 ^ 44 ∧ |coord mesh k 100 - st.getD k 0| ≤ B / 2 ^ 44 ∧
        |coord mesh k 10100 - eb.getD k 0| ≤ B / 2 ^ 44 ∧ |coord mesh k 10200 - et.getD k 0| ≤ B / 2 ^ 44 :=
  mesh_default_binary64 (fun _ _ hu hv hu' hv' => adaptive_session_with_evaluates_binary64 hB0 hB1 hls hcI hsI hst het hsb heb
    hends h3 hdata hp hp5 ht hN hlt hn hq hq5 hqm hm hf hsize hsize' hrt hrb hs hu hv hu' hv') hc

end

/-! ## Concrete cases -/

/-- C196: a session that ends with a surface, and the corner `(1, 0)` of its mesh. -/
example : ∃ tb bb s rows single mesh,
    BoundaryFitR bin64 3 exZeroSolver (fun _ _ => .ok 0) false (lift1 [0, 1, 0]) (lift1 [2, 1, 0]) 2 5 (lift2 exKnotData) (.ok tb) ∧
    BoundaryFitR bin64 3 exZeroSolver (fun _ _ => .ok 0) false (lift1 [0, 0, 0]) (lift1 [2, 0, 1 / 2]) 2 5 (lift2 exKnotData)
      (.ok bb) ∧
    InteriorFitR bin64 exZeroSolver (fun _ _ => .ok (0, 1)) tb bb 1 3 (lift2 [[1, 1, 1], [2, 1, 1]]) (.ok (s, rows)) ∧
    Computes bin64 s single ∧ vtkSamplesFl fl64 single 100 = .ok mesh ∧ mesh.length = 10201 ∧
    |coord mesh 2 10100 - 1 / 2| ≤ 2 / 2 ^ 44 := by
  have hc : TameCurveInversion bin64 (fun _ => False) fun _ _ => .ok (0 : Ext ℚ) :=
    fun _ _ => Or.inr ⟨0, rfl, by decide +kernel, le_rfl, zero_le_one⟩
  have hi : TameSurfaceInversion bin64 (fun _ => False) fun _ _ => .ok ((0, 1) : Ext ℚ × Ext ℚ) :=
    fun _ _ => Or.inr ⟨0, 1, rfl, ⟨by decide +kernel, le_rfl, zero_le_one⟩, by decide +kernel, zero_le_one, le_rfl⟩
  obtain ⟨⟨⟨rt, hrt⟩, rb, hrb⟩, all⟩ := session_with_binary64 (B := 2)
    (st := [0, 1, 0]) (et := [2, 1, 0]) (sb := [0, 0, 0]) (eb := [2, 0, 1 / 2]) (dt := exKnotData)
    (db := exKnotData) (data := [[1, 1, 1], [2, 1, 1]]) (p := 2) (n := 5) (q := 1) (m := 3) (fuel := 3) exTwo_size.1
    (by decide +kernel) exZeroSolver_tame hc hi rfl rfl rfl rfl (by decide +kernel) (by decide +kernel) (by decide +kernel)
    (by norm_num) (by norm_num) (by norm_num) (by norm_num) (by norm_num) (by norm_num) (by norm_num) (by norm_num)
    (by norm_num) (by decide +kernel)
  rcases all rt rb hrt hrb with ⟨_, h, _⟩ | ⟨tb, bb, rfl, rfl, ⟨res, hres⟩, h⟩
  · exact h.elim
  rcases h res hres with ⟨_, h, _⟩ | ⟨P, U, V, rows, rfl, -⟩
  · exact h.elim
  obtain ⟨single, hsingle⟩ := computes_exists (Surface.mk 2 1 5 3 P U V).lift
  obtain ⟨mesh, h1, h2, -, h3⟩ := session_mesh_binary64 (B := 2)
    (st := [0, 1, 0]) (et := [2, 1, 0]) (sb := [0, 0, 0]) (eb := [2, 0, 1 / 2]) (dt := exKnotData)
    (db := exKnotData) (data := [[1, 1, 1], [2, 1, 1]]) (p := 2) (n := 5) (q := 1) (m := 3) (fuel := 3) exTwo_size.1
    (by decide +kernel) exZeroSolver_tame hc hi rfl rfl rfl rfl (by decide +kernel) (by decide +kernel) (by decide +kernel)
    (by norm_num) (by norm_num) (by norm_num) (by norm_num) (by norm_num) (by norm_num) (by norm_num) (by norm_num)
    (by norm_num) (by norm_num) (by decide +kernel) hrt hrb hres hsingle
  exact ⟨tb, bb, _, _, single, mesh, hrt, hrb, hres, hsingle, h1, h2.1, (h3 2 (by norm_num)).2.2.1⟩

end PySpline
