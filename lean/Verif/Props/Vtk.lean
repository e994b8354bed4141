import Verif.Lemmas.Vtk
import Verif.Lemmas.VtkDouble
import Verif.Lemmas.Meth
import Verif.Props.SurfaceInversion

/-!
# C152: the mesh written by `surf_to_vtk`
-/

set_option linter.unusedSectionVars false

namespace PySpline

open Spec

section
variable {K : Type} [Field K] [LinearOrder K] [IsStrictOrderedRing K]

/-- The parameters of the grid with `n + 1` values per direction. -/
def paramGrid (K : Type) [Field K] (n : ℕ) : List (List K) :=
  (List.range ((n + 1) * (n + 1))).map fun x => [((x / (n + 1) : ℕ) : K) / n, ((x % (n + 1) : ℕ) : K) / n]

/-- What makes a triangulation of points in the plane one of Delaunay: triangles between the points, around each of
which there is a circle with no point inside. -/
structure Delaunay (P : List (List K)) (T : List (List ℕ)) : Prop where
  corners : ∀ t ∈ T, t.length = 3 ∧ ∀ x ∈ t, x < P.length
  empty : ∀ t ∈ T, ∃ a b r : K, (∀ x ∈ t, (coord P 0 x - a) ^ 2 + (coord P 1 x - b) ^ 2 = r) ∧
    ∀ x < P.length, r ≤ (coord P 0 x - a) ^ 2 + (coord P 1 x - b) ^ 2

/-- Barycentric coordinates. -/
structure Weights (t : List ℕ) (w : ℕ → K) : Prop where
  nonneg : ∀ x ∈ t, 0 ≤ w x
  sum : (t.map w).sum = 1

/-- The point of a triangle with these barycentric coordinates: one coordinate, `c x` being that of corner `x`. -/
def combine (t : List ℕ) (w c : ℕ → K) : K := (t.map fun x => w x * c x).sum

/-- The triangles cover the unit square. -/
def CoversSquare (P : List (List K)) (T : List (List ℕ)) : Prop :=
  ∀ u v : K, 0 ≤ u → u ≤ 1 → 0 ≤ v → v ≤ 1 →
    ∃ t ∈ T, ∃ w, Weights t w ∧ combine t w (coord P 0) = u ∧ combine t w (coord P 1) = v

theorem paramGrid_length (n : ℕ) : (paramGrid K n).length = (n + 1) * (n + 1) := by simp [paramGrid]

theorem paramGrid_coord {n x : ℕ} (hx : x < (n + 1) * (n + 1)) :
    coord (paramGrid K n) 0 x = ((x / (n + 1) : ℕ) : K) / n ∧ coord (paramGrid K n) 1 x = ((x % (n + 1) : ℕ) : K) / n := by
  simp [coord, paramGrid, List.getD_eq_getElem?_getD, List.getElem?_map, List.getElem?_range hx]

/-- **C152**, the triangles.  Every triangle of a Delaunay triangulation of the grid lies in one cell. -/
theorem delaunay_cell {n : ℕ} (hn : 1 ≤ n) {T : List (List ℕ)} (hT : Delaunay (paramGrid K n) T) :
    ∀ t ∈ T, ∃ i j : ℕ, ∀ x ∈ t, (x / (n + 1) = i ∨ x / (n + 1) = i + 1) ∧ (x % (n + 1) = j ∨ x % (n + 1) = j + 1) := by
  intro t ht
  obtain ⟨a, b, r, hon, hout⟩ := hT.empty t ht
  obtain ⟨hlen, hin⟩ := hT.corners t ht
  rw [paramGrid_length] at hout hin
  have hn0 : (0 : K) < n := by exact_mod_cast hn
  have hh : (0 : K) < 1 / n := by positivity
  have hdiv : ∀ x ∈ t, x / (n + 1) ≤ n := fun x hx => Nat.lt_succ_iff.1 (Nat.div_lt_of_lt_mul (hin x hx))
  have hmod : ∀ x ∈ t, x % (n + 1) ≤ n := fun x hx => Nat.lt_succ_iff.1 (Nat.mod_lt _ (by omega))
  have least : ∀ x ∈ t, (∀ k ≤ n, (((x / (n + 1) : ℕ) : K) * (1 / n) - a) ^ 2 ≤ ((k : K) * (1 / n) - a) ^ 2) ∧
      ∀ k ≤ n, (((x % (n + 1) : ℕ) : K) * (1 / n) - b) ^ 2 ≤ ((k : K) * (1 / n) - b) ^ 2 := by
    intro x hx
    refine least_parts (f := fun k => ((k : K) * (1 / n) - a) ^ 2) (g := fun k => ((k : K) * (1 / n) - b) ^ 2)
      (hdiv x hx) (hmod x hx) fun k hk l hl => ?_
    have e1 := hon x hx
    have hlt : k * (n + 1) + l < (n + 1) * (n + 1) := index_lt (by omega) (by omega)
    have e2 := hout _ hlt
    rw [(paramGrid_coord (hin x hx)).1, (paramGrid_coord (hin x hx)).2] at e1
    rw [(paramGrid_coord hlt).1, (paramGrid_coord hlt).2] at e2
    have d1 : (k * (n + 1) + l) / (n + 1) = k := by
      rw [Nat.mul_comm, Nat.mul_add_div (by omega), Nat.div_eq_of_lt (by omega), Nat.add_zero]
    have d2 : (k * (n + 1) + l) % (n + 1) = l := by
      rw [Nat.mul_comm, Nat.mul_add_mod, Nat.mod_eq_of_lt (by omega)]
    rw [d1, d2] at e2
    simp only [mul_one_div]
    exact e1.trans_le e2
  -- the least indices of the corners
  have main : ∀ f : ℕ → ℕ, (∀ x ∈ t, ∀ y ∈ t, f x ≤ f y + 1) → ∃ i, ∀ x ∈ t, f x = i ∨ f x = i + 1 := by
    intro f hf
    have hne : t ≠ [] := by rintro rfl; simp at hlen
    obtain ⟨m, hm, hmin⟩ := Finset.exists_min_image t.toFinset f (by simpa using hne)
    rw [List.mem_toFinset] at hm
    exact ⟨f m, fun x hx => by
      have := hmin x (List.mem_toFinset.2 hx); have := hf x hx m hm; omega⟩
  obtain ⟨i, hi⟩ := main (fun x => x / (n + 1)) fun x hx y hy =>
    minimisers_close hh (hdiv x hx) (hdiv y hy) (least x hx).1 (least y hy).1
  obtain ⟨j, hj⟩ := main (fun x => x % (n + 1)) fun x hx y hy =>
    minimisers_close hh (hmod x hx) (hmod y hy) (least x hx).2 (least y hy).2
  exact ⟨i, j, fun x hx => ⟨hi x hx, hj x hx⟩⟩

/-- The vertices of the mesh of a surface. -/
def vtkPoints (s : Surface K) (n : ℕ) : List (List K) :=
  (paramGrid K n).map fun q => [s.value 0 (q.getD 0 0) (q.getD 1 0), s.value 1 (q.getD 0 0) (q.getD 1 0),
    s.value 2 (q.getD 0 0) (q.getD 1 0)]

variable [FloorRing K]

/-- **C152**, the file.  With `n_tri = n ≥ 1` the triangulator gets the uniform grid of `[0, 1]²` with `n + 1` values
per direction and the writer the mesh of the surface points at these parameters, in the same order, with the triangles of
the triangulator.  If the triangulator raises, no file is touched. -/
theorem surf_to_vtk_mesh (delaunay : List (List K) → Py (List (List ℕ))) (write : String → Mesh K → Meth FS Unit)
    {s : Surface K} (hs : ClampedSurface s) {n : ℕ} (hn : 1 ≤ n)
    (ru : ∀ i ≤ n, Regular s.degreeU s.numU s.kvU ((i : K) / n))
    (rv : ∀ j ≤ n, Regular s.degreeV s.numV s.kvV ((j : K) / n)) (name : String) (fs : FS) :
    surfToVtk delaunay write s.singlePoint name n fs = match delaunay (paramGrid K n) with
      | .ok T => write name ⟨vtkPoints s n, T⟩ fs
      | .error e => (.error e, fs) := by
  unfold surfToVtk
  rw [vtk_samples_surface hs hn ru rv, Meth.lift_ok_bind]
  rw [mapPy_map (g := fun row => [row.getD 3 0, row.getD 4 0]), Meth.lift_ok_bind]
  · have e : (List.map (fun row => [row.getD 3 0, row.getD 4 0]) (List.map
        (vtkRow (fun u v => [s.value 0 u v, s.value 1 u v, s.value 2 u v]) n) (List.range ((n + 1) * (n + 1))))
        : List (List K)) = paramGrid K n := by
      rw [List.map_map]
      exact List.map_congr_left fun x _ => by simp [vtkRow]
    rw [e]
    rcases delaunay (paramGrid K n) with err | T
    · rfl
    · rw [Meth.lift_ok_bind]
      congr 2
      rw [vtkPoints, paramGrid, List.map_map, List.map_map]
      exact List.map_congr_left fun x _ => by simp [vtkRow]
  · intro row hrow
    obtain ⟨x, _, rfl⟩ := List.mem_map.1 hrow
    simp only [vtkRow]
    rfl

/-- **C152**, failures.  If the surface cannot be evaluated at one of the grid parameters or returns a point without
exactly three coordinates there, the call raises and no file is touched, whatever the triangulator and the writer do. -/
theorem surf_to_vtk_raises (delaunay : List (List K) → Py (List (List ℕ))) (write : String → Mesh K → Meth FS Unit)
    (single : K → K → Py (List K)) {n : ℕ} (hn : 1 ≤ n) {i j : ℕ} (hi : i ≤ n) (hj : j ≤ n)
    (h : ∀ q, single ((i : K) / n) ((j : K) / n) = .ok q → q.length ≠ 3) (name : String) (fs : FS) :
    ∃ e, surfToVtk delaunay write single name n fs = (.error e, fs) := by
  obtain ⟨e, he⟩ : Raises (vtkSamples single (n : ℤ)) := by
    have hn0 : (0 : K) < n := by exact_mod_cast hn
    unfold vtkSamples
    rw [Int.cast_natCast, pyDiv_ok hn0.ne', ok_bind]
    have mem : ∀ k ≤ n, (k : K) / n ∈ arange (0 : K) (1 + 1 / n) (1 / n) := by
      intro k hk
      unfold arange
      have e : ((1 + 1 / n : K) - 0) / (1 / n) = ((n + 1 : ℤ) : K) := by
        push_cast
        field_simp
        ring
      rw [e, Int.ceil_intCast]
      exact List.mem_map.2 ⟨k, List.mem_range.2 (by omega), by ring⟩
    dsimp only
    refine Raises.bind_left (forL_raises (mem i hi) (fun st => forL_raises (mem j hj) (fun st' => ?_) st) _)
    rcases hq : single ((i : K) / n) ((j : K) / n) with e | q
    · exact ⟨e, rfl⟩
    · refine ⟨.valueError, ?_⟩
      have := h q hq
      rw [ok_bind, if_neg (by simpa using this)]
      rfl
  unfold surfToVtk
  rw [he]
  exact ⟨e, rfl⟩

/-- **C152**, other numbers of triangles.  `n_tri = 0` raises; for a negative number the surface is not evaluated at all,
and every vertex and every parameter is zero. -/
theorem surf_to_vtk_negative (delaunay : List (List K) → Py (List (List ℕ))) (write : String → Mesh K → Meth FS Unit)
    (single : K → K → Py (List K)) (name : String) (fs : FS) :
    surfToVtk delaunay write single name 0 fs = (.error .nonfinite, fs) ∧
    ∀ n : ℕ, 1 ≤ n → surfToVtk delaunay write single name (-n) fs
      = match delaunay (List.replicate ((n - 1) ^ 2) [0, 0]) with
        | .ok T => write name ⟨List.replicate ((n - 1) ^ 2) [0, 0, 0], T⟩ fs
        | .error e => (.error e, fs) := by
  constructor
  · unfold surfToVtk
    rw [vtk_samples_zero]
    rfl
  · intro n hn
    have hn0 : (0 : K) < n := by exact_mod_cast hn
    have hn1 : (1 : K) ≤ n := by exact_mod_cast hn
    have hs : vtkSamples single (-n : ℤ) = .ok (List.replicate ((n - 1) ^ 2) [0, 0, 0, 0, 0]) := by
      unfold vtkSamples
      have hc : ((-n : ℤ) : K) = -n := by push_cast; rfl
      rw [hc, pyDiv_ok (neg_ne_zero.2 hn0.ne'), ok_bind]
      have ha : arange (0 : K) (1 + 1 / -n) (1 / -n) = [] := by
        unfold arange
        have e : ((1 + 1 / -n : K) - 0) / (1 / -n) = ((1 - n : ℤ) : K) := by
          push_cast
          field_simp
          ring
        rw [e, Int.ceil_intCast]
        have : ((1 : ℤ) - n).toNat = 0 := by omega
        rw [this]
        rfl
      have ht : pyTrunc (((1 + 1 / -n : K) - 0) * -n) = 1 - n := by
        have e : ((1 + 1 / -n : K) - 0) * -n = ((1 - n : ℤ) : K) := by
          push_cast
          field_simp
          ring
        unfold pyTrunc
        rw [e]
        split
        · exact Int.floor_intCast _
        · rw [← Int.cast_neg, Int.floor_intCast]; ring
      dsimp only
      rw [ha, ht]
      have hz : ((1 - (n : ℤ)) * (1 - (n : ℤ))).toNat = (n - 1) ^ 2 := by
        rw [show (1 - (n : ℤ)) * (1 - (n : ℤ)) = (((n - 1) ^ 2 : ℕ) : ℤ) by
          rw [Nat.cast_pow, Nat.cast_sub hn]; push_cast; ring, Int.toNat_natCast]
      rw [hz]
      rfl
    unfold surfToVtk
    rw [hs, Meth.lift_ok_bind, mapPy_map (g := fun _ => [0, 0]), Meth.lift_ok_bind]
    · rw [List.map_replicate]
      rcases delaunay (List.replicate ((n - 1) ^ 2) [0, 0]) with err | T
      · rfl
      · rw [Meth.lift_ok_bind, List.map_replicate]
        rfl
    · intro row hrow
      rw [List.eq_of_mem_replicate hrow]
      rfl

/-- **C152**, `InteriorProblem.vtk`.  For a problem with a fitted surface the method writes the mesh of this surface with
100 steps per direction and leaves the problem as it was; if the triangulator raises, no file is touched. -/
theorem interior_vtk_mesh (env : DataEnv K) {w : IWorld K} {s : Surface K} (hw : w.self.fitSurface = some s)
    (hs : ClampedSurface s) (ru : ∀ i : ℕ, i ≤ 100 → Regular s.degreeU s.numU s.kvU ((i : K) / 100))
    (rv : ∀ j : ℕ, j ≤ 100 → Regular s.degreeV s.numV s.kvV ((j : K) / 100)) (name : String) :
    Interior.vtk env name w = match env.delaunay (paramGrid K 100) with
      | .ok T => ((env.writeMesh name ⟨vtkPoints s 100, T⟩ w.fs).1,
          ⟨w.self, (env.writeMesh name ⟨vtkPoints s 100, T⟩ w.fs).2⟩)
      | .error e => (.error e, w) := by
  have h := surf_to_vtk_mesh env.delaunay env.writeMesh hs (n := 100) (by norm_num)
    (fun i hi => by simpa using ru i hi) (fun j hj => by simpa using rv j hj) name w.fs
  unfold Interior.vtk
  rw [Meth.read_bind, hw]
  show ((surfToVtk env.delaunay env.writeMesh s.singlePoint name ((100 : ℕ) : ℤ) w.fs).1,
    (⟨w.self, (surfToVtk env.delaunay env.writeMesh s.singlePoint name ((100 : ℕ) : ℤ) w.fs).2⟩ : IWorld K)) = _
  rw [h]
  rcases env.delaunay (paramGrid K 100) with e | T <;> rfl

/-- **C152**, the distance between the mesh and the surface.  Let `L k`, `M k` be the Lipschitz constants of coordinate
`k` of the surface read off the control net as in C132, and let the triangulator return a Delaunay triangulation of the
grid.  Then every point of every triangle differs in coordinate `k` from the surface point at the same parameters by at
most `(L k + M k) / 2n`. -/
theorem surf_to_vtk_close {s : Surface K} (hs : ClampedSurface s) {n : ℕ} (hn : 1 ≤ n)
    (ru : AllRegular s.degreeU s.numU s.kvU) (rv : AllRegular s.degreeV s.numV s.kvV) {L M : ℕ → K}
    (hL : ∀ k < 3, ∀ i j, i + 1 < s.numU → j < s.numV →
      |coord s.ctrlpts k ((i + 1) * s.numV + j) - coord s.ctrlpts k (i * s.numV + j)| * s.degreeU
        ≤ L k * (knotFn s.kvU (i + s.degreeU + 1) - knotFn s.kvU (i + 1)))
    (hM : ∀ k < 3, ∀ i j, i < s.numU → j + 1 < s.numV →
      |coord s.ctrlpts k (i * s.numV + (j + 1)) - coord s.ctrlpts k (i * s.numV + j)| * s.degreeV
        ≤ M k * (knotFn s.kvV (j + s.degreeV + 1) - knotFn s.kvV (j + 1)))
    {T : List (List ℕ)} (hT : Delaunay (paramGrid K n) T) :
    ∀ t ∈ T, ∀ w, Weights t w → ∀ k < 3,
      |combine t w (coord (vtkPoints s n) k)
        - s.value k (combine t w (coord (paramGrid K n) 0)) (combine t w (coord (paramGrid K n) 1))|
      ≤ (L k + M k) / (2 * n) := by
  intro t ht w hw k hk
  obtain ⟨i, j, hij⟩ := delaunay_cell hn hT t ht
  have hin := (hT.corners t ht).2
  rw [paramGrid_length] at hin
  have hn0 : (0 : K) < n := by exact_mod_cast hn
  have hh : (0 : K) < 1 / n := by positivity
  have unit : ∀ a ≤ n, 0 ≤ (a : K) / n ∧ (a : K) / n ≤ 1 := fun a ha =>
    ⟨by positivity, (div_le_one hn0).2 (by exact_mod_cast ha)⟩
  have hx0 : ∀ x ∈ t, 0 ≤ coord (paramGrid K n) 0 x ∧ coord (paramGrid K n) 0 x ≤ 1 := fun x hx => by
    rw [(paramGrid_coord (hin x hx)).1]
    exact unit _ (Nat.lt_succ_iff.1 (Nat.div_lt_of_lt_mul (hin x hx)))
  have hx1 : ∀ x ∈ t, 0 ≤ coord (paramGrid K n) 1 x ∧ coord (paramGrid K n) 1 x ≤ 1 := fun x hx => by
    rw [(paramGrid_coord (hin x hx)).2]
    exact unit _ (Nat.lt_succ_iff.1 (Nat.mod_lt _ (by omega)))
  have mean : ∀ g : ℕ → K, (∀ x ∈ t, 0 ≤ g x ∧ g x ≤ 1) → 0 ≤ combine t w g ∧ combine t w g ≤ 1 := by
    intro g hg
    constructor
    · exact List.sum_nonneg (by
        intro y hy
        obtain ⟨x, hx, rfl⟩ := List.mem_map.1 hy
        exact mul_nonneg (hw.nonneg x hx) (hg x hx).1)
    · have : combine t w g ≤ (t.map w).sum := List.sum_le_sum fun x hx =>
        mul_le_of_le_one_right (hw.nonneg x hx) (hg x hx).2
      rwa [hw.sum] at this
  have hu := mean _ hx0
  have hv := mean _ hx1
  set u := combine t w (coord (paramGrid K n) 0) with hudef
  set v := combine t w (coord (paramGrid K n) 1) with hvdef
  have ru' := ru u hu.1 hu.2
  have rv' := rv v hv.1 hv.2
  have lip := fun {a b c d : K} => surface_lipschitz hs.cu hs.cv hs.du hs.dv (hL k hk) (hM k hk) (s := a) (t := b)
    (u := c) (v := d)
  have r0 := ru 0 le_rfl zero_le_one
  have r1 := ru 1 zero_le_one le_rfl
  have q0 := rv 0 le_rfl zero_le_one
  have q1 := rv 1 zero_le_one le_rfl
  have hLn : 0 ≤ L k := by
    simpa using (abs_nonneg _).trans (lip ⟨r1.lo, r1.hi⟩ ⟨r0.lo, r0.hi⟩ ⟨q0.lo, q0.hi⟩ ⟨q0.lo, q0.hi⟩)
  have hMn : 0 ≤ M k := by
    simpa using (abs_nonneg _).trans (lip ⟨r0.lo, r0.hi⟩ ⟨r0.lo, r0.hi⟩ ⟨q1.lo, q1.hi⟩ ⟨q0.lo, q0.hi⟩)
  have vert : ∀ x ∈ t, coord (vtkPoints s n) k x
      = s.value k (coord (paramGrid K n) 0 x) (coord (paramGrid K n) 1 x) := by
    intro x hx
    have hlt : x < (paramGrid K n).length := by rw [paramGrid_length]; exact hin x hx
    simp only [coord, vtkPoints, List.getD_eq_getElem?_getD, List.getElem?_map, List.getElem?_eq_getElem hlt,
      Option.map_some, Option.getD_some]
    interval_cases k <;> rfl
  calc |combine t w (coord (vtkPoints s n) k) - s.value k u v|
      ≤ (t.map fun x => w x * |coord (vtkPoints s n) k x - s.value k u v|).sum :=
        abs_mean_sub_le hw.nonneg hw.sum _
    _ ≤ (t.map fun x => w x * (L k * |coord (paramGrid K n) 0 x - u| + M k * |coord (paramGrid K n) 1 x - v|)).sum := by
        refine List.sum_le_sum fun x hx => mul_le_mul_of_nonneg_left ?_ (hw.nonneg x hx)
        rw [vert x hx]
        have a := ru _ (hx0 x hx).1 (hx0 x hx).2
        have b := rv _ (hx1 x hx).1 (hx1 x hx).2
        exact lip ⟨a.lo, a.hi⟩ ⟨ru'.lo, ru'.hi⟩ ⟨b.lo, b.hi⟩ ⟨rv'.lo, rv'.hi⟩
    _ = L k * (t.map fun x => w x * |coord (paramGrid K n) 0 x - u|).sum
        + M k * (t.map fun x => w x * |coord (paramGrid K n) 1 x - v|).sum := by
        rw [← List.sum_map_mul_left, ← List.sum_map_mul_left, ← List.sum_map_add]
        congr 1
        exact List.map_congr_left fun x _ => by ring
    _ ≤ L k * (1 / n / 2) + M k * (1 / n / 2) := by
        refine add_le_add (mul_le_mul_of_nonneg_left ?_ hLn) (mul_le_mul_of_nonneg_left ?_ hMn)
        · refine mean_deviation (a := (i : K) / n) hw.nonneg hw.sum hh fun x hx => ?_
          rw [(paramGrid_coord (hin x hx)).1]
          rcases (hij x hx).1 with h | h <;> rw [h]
          · exact Or.inl rfl
          · exact Or.inr (by push_cast; ring)
        · refine mean_deviation (a := (j : K) / n) hw.nonneg hw.sum hh fun x hx => ?_
          rw [(paramGrid_coord (hin x hx)).2]
          rcases (hij x hx).2 with h | h <;> rw [h]
          · exact Or.inl rfl
          · exact Or.inr (by push_cast; ring)
    _ = (L k + M k) / (2 * n) := by field_simp

/-- **C152**, conversely: if the triangles cover the unit square, over every parameter pair there is a point of the mesh
as close to the surface point. -/
theorem surf_to_vtk_covers {s : Surface K} (hs : ClampedSurface s) {n : ℕ} (hn : 1 ≤ n)
    (ru : AllRegular s.degreeU s.numU s.kvU) (rv : AllRegular s.degreeV s.numV s.kvV) {L M : ℕ → K}
    (hL : ∀ k < 3, ∀ i j, i + 1 < s.numU → j < s.numV →
      |coord s.ctrlpts k ((i + 1) * s.numV + j) - coord s.ctrlpts k (i * s.numV + j)| * s.degreeU
        ≤ L k * (knotFn s.kvU (i + s.degreeU + 1) - knotFn s.kvU (i + 1)))
    (hM : ∀ k < 3, ∀ i j, i < s.numU → j + 1 < s.numV →
      |coord s.ctrlpts k (i * s.numV + (j + 1)) - coord s.ctrlpts k (i * s.numV + j)| * s.degreeV
        ≤ M k * (knotFn s.kvV (j + s.degreeV + 1) - knotFn s.kvV (j + 1)))
    {T : List (List ℕ)} (hT : Delaunay (paramGrid K n) T) (hc : CoversSquare (paramGrid K n) T) {u v : K}
    (hu : 0 ≤ u ∧ u ≤ 1) (hv : 0 ≤ v ∧ v ≤ 1) :
    ∃ t ∈ T, ∃ w, Weights t w ∧ ∀ k < 3,
      |s.value k u v - combine t w (coord (vtkPoints s n) k)| ≤ (L k + M k) / (2 * n) := by
  obtain ⟨t, ht, w, hw, e0, e1⟩ := hc u v hu.1 hu.2 hv.1 hv.2
  refine ⟨t, ht, w, hw, fun k hk => ?_⟩
  have := surf_to_vtk_close hs hn ru rv hL hM hT t ht w hw k hk
  rwa [e0, e1, abs_sub_comm] at this

/-! ## The assumptions can be met for every grid -/

/-- Both halves of every cell. -/
def gridTriangles (n : ℕ) : List (List ℕ) :=
  (List.range n).flatMap fun i => (List.range n).flatMap fun j =>
    [[i * (n + 1) + j, i * (n + 1) + (j + 1), (i + 1) * (n + 1) + j],
     [(i + 1) * (n + 1) + (j + 1), i * (n + 1) + (j + 1), (i + 1) * (n + 1) + j]]

theorem mem_gridTriangles {n : ℕ} {t : List ℕ} : t ∈ gridTriangles n ↔ ∃ i < n, ∃ j < n,
    t = [i * (n + 1) + j, i * (n + 1) + (j + 1), (i + 1) * (n + 1) + j] ∨
    t = [(i + 1) * (n + 1) + (j + 1), i * (n + 1) + (j + 1), (i + 1) * (n + 1) + j] := by
  simp [gridTriangles]

theorem grid_coord {n a b : ℕ} (ha : a ≤ n) (hb : b ≤ n) :
    coord (paramGrid K n) 0 (a * (n + 1) + b) = (a : K) / n ∧ coord (paramGrid K n) 1 (a * (n + 1) + b) = (b : K) / n := by
  have hlt : a * (n + 1) + b < (n + 1) * (n + 1) := index_lt (by omega) (by omega)
  have d1 : (a * (n + 1) + b) / (n + 1) = a := by
    rw [Nat.mul_comm, Nat.mul_add_div (by omega), Nat.div_eq_of_lt (by omega), Nat.add_zero]
  have d2 : (a * (n + 1) + b) % (n + 1) = b := by
    rw [Nat.mul_comm, Nat.mul_add_mod, Nat.mod_eq_of_lt (by omega)]
  have := paramGrid_coord (K := K) hlt
  rwa [d1, d2] at this

theorem gridTriangles_delaunay {n : ℕ} (hn : 1 ≤ n) :
    Delaunay (paramGrid K n) (gridTriangles n) ∧ CoversSquare (paramGrid K n) (gridTriangles n) := by
  have hn0 : (0 : K) < n := by exact_mod_cast hn
  refine ⟨⟨fun t ht => ?_, fun t ht => ?_⟩, fun u v hu0 hu1 hv0 hv1 => ?_⟩
  · obtain ⟨i, hi, j, hj, h⟩ := mem_gridTriangles.1 ht
    rw [paramGrid_length]
    have a : ∀ {a b : ℕ}, a ≤ n → b ≤ n → a * (n + 1) + b < (n + 1) * (n + 1) := fun ha hb =>
      index_lt (by omega) (by omega)
    rcases h with rfl | rfl
    · refine ⟨rfl, fun x hx => ?_⟩
      simp only [List.mem_cons, List.not_mem_nil, or_false] at hx
      rcases hx with rfl | rfl | rfl <;> exact a (by omega) (by omega)
    · refine ⟨rfl, fun x hx => ?_⟩
      simp only [List.mem_cons, List.not_mem_nil, or_false] at hx
      rcases hx with rfl | rfl | rfl <;> exact a (by omega) (by omega)
  · obtain ⟨i, hi, j, hj, h⟩ := mem_gridTriangles.1 ht
    refine ⟨(i + 1 / 2) / n, (j + 1 / 2) / n, 1 / (2 * n ^ 2), fun x hx => ?_, fun x hx => ?_⟩
    · have g := fun {a b : ℕ} => grid_coord (K := K) (n := n) (a := a) (b := b)
      rcases h with rfl | rfl <;>
      · simp only [List.mem_cons, List.not_mem_nil, or_false] at hx
        rcases hx with rfl | rfl | rfl <;>
        · rw [(g (by omega) (by omega)).1, (g (by omega) (by omega)).2]
          push_cast
          field_simp
          ring
    · rw [paramGrid_length] at hx
      rw [(paramGrid_coord hx).1, (paramGrid_coord hx).2, div_sub_div_same, div_sub_div_same, div_pow, div_pow,
        ← add_div, one_div, mul_inv, ← div_eq_mul_inv, div_le_div_iff_of_pos_right (by positivity)]
      have half : ∀ a b : ℕ, (1 : K) / 4 ≤ ((a : K) - (b + 1 / 2)) ^ 2 := by
        intro a b
        rcases Nat.lt_or_ge b a with h | h
        · have : (b : K) + 1 ≤ a := by exact_mod_cast h
          nlinarith
        · have : (a : K) ≤ b := by exact_mod_cast h
          nlinarith
      linarith [half (x / (n + 1)) i, half (x % (n + 1)) j]
  · -- the cell of the point
    have cell : ∀ y : K, 0 ≤ y → y ≤ 1 → ∃ i < n, ∃ a, 0 ≤ a ∧ a ≤ 1 ∧ y = (i + a) / n := by
      intro y h0 h1
      rcases eq_or_lt_of_le h1 with rfl | h1
      · refine ⟨n - 1, by omega, 1, zero_le_one, le_rfl, ?_⟩
        rw [Nat.cast_sub hn, eq_div_iff hn0.ne']
        push_cast
        ring
      · have hp : 0 ≤ y * n := mul_nonneg h0 hn0.le
        have hlt : ⌊y * n⌋₊ < n := (Nat.floor_lt hp).2 (by nlinarith)
        refine ⟨⌊y * n⌋₊, hlt, y * n - ⌊y * n⌋₊, by linarith [Nat.floor_le hp],
          by linarith [Nat.lt_floor_add_one (y * n)], ?_⟩
        field_simp
        ring
    obtain ⟨i, hi, a, ha0, ha1, rfl⟩ := cell u hu0 hu1
    obtain ⟨j, hj, b, hb0, hb1, rfl⟩ := cell v hv0 hv1
    have ne : ∀ a b c d : ℕ, b ≤ n → d ≤ n → (a ≠ c ∨ b ≠ d) → a * (n + 1) + b ≠ c * (n + 1) + d := by
      intro a b c d hb hd h he
      have h1 := congrArg (· / (n + 1)) he
      have h2 := congrArg (· % (n + 1)) he
      rw [Nat.mul_comm, Nat.mul_add_div (by omega), Nat.div_eq_of_lt (by omega), Nat.mul_comm c,
        Nat.mul_add_div (by omega), Nat.div_eq_of_lt (by omega)] at h1
      rw [Nat.mul_comm, Nat.mul_add_mod, Nat.mod_eq_of_lt (by omega), Nat.mul_comm c, Nat.mul_add_mod,
        Nat.mod_eq_of_lt (by omega)] at h2
      omega
    have g := fun {a b : ℕ} => grid_coord (K := K) (n := n) (a := a) (b := b)
    have three : ∀ (x y z : ℕ) (p q r : K), x ≠ y → x ≠ z → y ≠ z → ∃ w : ℕ → K, w x = p ∧ w y = q ∧ w z = r := by
      intro x y z p q r h1 h2 h3
      exact ⟨fun k => if k = x then p else if k = y then q else r, by simp, by simp [h1.symm], by simp [h2.symm, h3.symm]⟩
    rcases le_total (a + b) 1 with hab | hab
    · obtain ⟨w, w1, w2, w3⟩ := three (i * (n + 1) + j) (i * (n + 1) + (j + 1)) ((i + 1) * (n + 1) + j)
        (1 - a - b) b a (ne _ _ _ _ (by omega) (by omega) (by omega)) (ne _ _ _ _ (by omega) (by omega) (by omega))
        (ne _ _ _ _ (by omega) (by omega) (by omega))
      refine ⟨_, mem_gridTriangles.2 ⟨i, hi, j, hj, Or.inl rfl⟩, w, ⟨fun x hx => ?_, ?_⟩, ?_, ?_⟩
      · simp only [List.mem_cons, List.not_mem_nil, or_false] at hx
        rcases hx with rfl | rfl | rfl
        · rw [w1]; linarith
        · rw [w2]; exact hb0
        · rw [w3]; exact ha0
      · simp only [List.map_cons, List.map_nil, List.sum_cons, List.sum_nil, w1, w2, w3]; ring
      · simp only [combine, List.map_cons, List.map_nil, List.sum_cons, List.sum_nil, w1, w2, w3]
        rw [(g (by omega) (by omega)).1, (g (by omega) (by omega)).1, (g (by omega) (by omega)).1]
        push_cast
        ring
      · simp only [combine, List.map_cons, List.map_nil, List.sum_cons, List.sum_nil, w1, w2, w3]
        rw [(g (by omega) (by omega)).2, (g (by omega) (by omega)).2, (g (by omega) (by omega)).2]
        push_cast
        ring
    · obtain ⟨w, w1, w2, w3⟩ := three ((i + 1) * (n + 1) + (j + 1)) (i * (n + 1) + (j + 1)) ((i + 1) * (n + 1) + j)
        (a + b - 1) (1 - a) (1 - b) (ne _ _ _ _ (by omega) (by omega) (by omega))
        (ne _ _ _ _ (by omega) (by omega) (by omega)) (ne _ _ _ _ (by omega) (by omega) (by omega))
      refine ⟨_, mem_gridTriangles.2 ⟨i, hi, j, hj, Or.inr rfl⟩, w, ⟨fun x hx => ?_, ?_⟩, ?_, ?_⟩
      · simp only [List.mem_cons, List.not_mem_nil, or_false] at hx
        rcases hx with rfl | rfl | rfl
        · rw [w1]; linarith
        · rw [w2]; linarith
        · rw [w3]; linarith
      · simp only [List.map_cons, List.map_nil, List.sum_cons, List.sum_nil, w1, w2, w3]; ring
      · simp only [combine, List.map_cons, List.map_nil, List.sum_cons, List.sum_nil, w1, w2, w3]
        rw [(g (by omega) (by omega)).1, (g (by omega) (by omega)).1, (g (by omega) (by omega)).1]
        push_cast
        ring
      · simp only [combine, List.map_cons, List.map_nil, List.sum_cons, List.sum_nil, w1, w2, w3]
        rw [(g (by omega) (by omega)).2, (g (by omega) (by omega)).2, (g (by omega) (by omega)).2]
        push_cast
        ring

end

/-! ## Concrete cases -/

/-- The saddle `z = uv`. -/
def exTwist : Surface ℚ :=
  ⟨1, 1, 2, 2, [[0, 0, 0], [0, 1, 0], [1, 0, 0], [1, 1, 1]], [0, 0, 1, 1], [0, 0, 1, 1]⟩

/-- A writer that stores the number of vertices and triangles. -/
def exMeshWriter (name : String) (m : Mesh ℚ) : Meth FS Unit := do
  openWrite name
  emit name (List.replicate m.points.length 'p' ++ List.replicate m.triangles.length 't')

/-- With two steps per direction the mesh has nine vertices, the corners at 0, 2, 6 and 8, and here eight triangles. -/
example : vtkPoints exTwist 2 = [[0, 0, 0], [0, 1/2, 0], [0, 1, 0], [1/2, 0, 0], [1/2, 1/2, 1/4], [1/2, 1, 1/2],
    [1, 0, 0], [1, 1/2, 1/2], [1, 1, 1]] := by decide +kernel
example : (surfToVtk (fun _ => .ok (gridTriangles 2)) exMeshWriter exTwist.singlePoint "s.vtk" 2 fun _ => none).2 "s.vtk"
    = some "ppppppppptttttttt".toList := by decide +kernel
/-- A surface that is not defined on the whole square leaves an old file alone; so does a triangulator that raises. -/
example : ((surfToVtk (fun _ => .ok []) exMeshWriter (fun u v => if u + v < 2 then exTwist.singlePoint u v
    else .error .valueError) "s.vtk" 2 fun _ => some ['x']).2 "s.vtk") = some ['x'] := by decide +kernel
example : ((surfToVtk (fun _ => .error .valueError) exMeshWriter exTwist.singlePoint "s.vtk" 2
    fun _ => some ['x']).2 "s.vtk") = some ['x'] := by decide +kernel
/-- Three triangles are asked for "backwards": four vertices at the origin. -/
example : (surfToVtk (fun _ => .ok [[0, 1, 2]]) exMeshWriter exTwist.singlePoint "s.vtk" (-3) fun _ => none).2 "s.vtk"
    = some "ppppt".toList := by decide +kernel

theorem exTwist_clamped : ClampedSurface exTwist where
  cu := ⟨⟨by decide +kernel, by decide +kernel, by decide⟩,
    by intro i hi; change i ≤ 1 at hi; interval_cases i <;> decide +kernel,
    by intro i h1 h2; change 2 ≤ i at h1; change i ≤ 3 at h2; interval_cases i <;> decide +kernel⟩
  cv := ⟨⟨by decide +kernel, by decide +kernel, by decide⟩,
    by intro i hi; change i ≤ 1 at hi; interval_cases i <;> decide +kernel,
    by intro i h1 h2; change 2 ≤ i at h1; change i ≤ 3 at h2; interval_cases i <;> decide +kernel⟩
  du := by decide
  dv := by decide
  shape := ⟨by decide, by decide +kernel⟩

theorem exTwist_regular : AllRegular (K := ℚ) 1 2 [0, 0, 1, 1] :=
  allRegular_of_distinct exTwist_clamped.cu
    (by intro i h1 h2; obtain rfl : i = 1 := by omega
        decide +kernel)
    (by decide +kernel) (by decide +kernel) (by decide +kernel)

/-- A problem with the saddle as fitted surface: the writer here stores whether the first coordinate of the second vertex
is zero. -/
example : (Interior.vtk ⟨⟨⟨fun _ => 0, fun _ _ => true⟩, fun _ _ _ => [], Curve.like fun _ => 0, Surface.like fun _ => 0⟩,
    ⟨fun _ => [], fun _ => [], fun _ => .error .valueError, fun _ => .error .valueError⟩, 0, fun _ => .ok [],
    fun name m => do
      openWrite name
      emit name (if coord m.points 0 1 = 0 then ['v'] else ['u'])⟩ "s.vtk"
    ⟨{ (Interior.new : Interior ℚ) with fitSurface := some exTwist }, fun _ => none⟩).2.fs "s.vtk" = some ['v'] := by
  have r (i : ℕ) (hi : i ≤ 100) : Regular (K := ℚ) 1 2 [0, 0, 1, 1] ((i : ℚ) / 100) := by
    have h : (i : ℚ) ≤ 100 := by exact_mod_cast hi
    exact exTwist_regular _ (by positivity) (by linarith)
  rw [interior_vtk_mesh _ rfl exTwist_clamped r r]
  decide +kernel

/-- The default of 100 steps approximates the height of the saddle to a hundredth. -/
example {u v : ℚ} (hu : 0 ≤ u ∧ u ≤ 1) (hv : 0 ≤ v ∧ v ≤ 1) : ∃ t ∈ gridTriangles 100, ∃ w, Weights t w ∧
    |exTwist.value 2 u v - combine t w (coord (vtkPoints exTwist 100) 2)| ≤ 1 / 100 := by
  obtain ⟨t, ht, w, hw, h⟩ := surf_to_vtk_covers (n := 100) (L := fun _ => 1) (M := fun _ => 1) exTwist_clamped (by omega)
    exTwist_regular exTwist_regular
    (by intro k hk i j hi hj
        change i + 1 < 2 at hi; change j < 2 at hj
        obtain rfl : i = 0 := by omega
        interval_cases k <;> interval_cases j <;> decide +kernel)
    (by intro k hk i j hi hj
        change i < 2 at hi; change j + 1 < 2 at hj
        obtain rfl : j = 0 := by omega
        interval_cases k <;> interval_cases i <;> decide +kernel)
    (gridTriangles_delaunay (by omega)).1 (gridTriangles_delaunay (by omega)).2 hu hv
  exact ⟨t, ht, w, hw, (h 2 (by omega)).trans (by norm_num)⟩

/-- Triangles across cells are excluded: around the corners `(0, 0)`, `(1, 0)`, `(1/2, 1/2)` every circle has
`(1/2, 0)` inside. -/
example : ¬ Delaunay (paramGrid ℚ 2) [[0, 6, 4]] := fun h => by
  obtain ⟨i, j, hij⟩ := delaunay_cell (by omega) h _ (List.mem_singleton.2 rfl)
  have a := (hij 0 (by simp)).1
  have b := (hij 6 (by simp)).1
  omega

end PySpline
