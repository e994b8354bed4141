import Mathlib.Algebra.Order.Field.Basic
import Mathlib.Algebra.BigOperators.Group.List.Basic
import Mathlib.Tactic.Ring
import Mathlib.Tactic.Linarith

/-!
# Python and numpy primitives

The vocabulary in which the model is written: errors as values, Python integer indexing,
slices, `range` loops, and the numpy helpers the code calls (`zeros`, `ones`, `linspace`,
`isclose`, `@`).
-/

namespace PySpline

/-- What a Python call can end in other than a value.
`nonfinite` : a division by zero (numpy continues with inf/nan, plain floats raise
`ZeroDivisionError`; the model stops).  `diverged` : the fuel of a `while` loop ran out. -/
inductive Err
  | indexError | valueError | typeError | attributeError | nameError | unboundLocalError
  | linAlgError | nonfinite | diverged | fileNotFound | unsupportedOperation | keyError
  | overflowError
  deriving DecidableEq, Repr

/-- Result of a modelled Python call. -/
abbrev Py (α : Type) := Except Err α

@[simp] theorem ok_bind {α β : Type} (a : α) (f : α → Py β) :
    ((Except.ok a : Py α) >>= f) = f a := rfl

@[simp] theorem error_bind {α β : Type} (e : Err) (f : α → Py β) :
    ((Except.error e : Py α) >>= f) = Except.error e := rfl

@[simp] theorem pure_eq_ok {α : Type} (a : α) : (pure a : Py α) = Except.ok a := rfl

instance {α : Type} [DecidableEq α] : DecidableEq (Py α) := fun a b =>
  match a, b with
  | .ok x, .ok y => if h : x = y then isTrue (h ▸ rfl) else isFalse (by simp [h])
  | .error x, .error y => if h : x = y then isTrue (h ▸ rfl) else isFalse (by simp [h])
  | .ok _, .error _ => isFalse (by simp)
  | .error _, .ok _ => isFalse (by simp)

/-! ## Indexing -/

/-- Python index normalisation for a sequence of length `n`.  Used for every subscript, e.g.
`knot_vector[-1 * (degree + 1)]` (`spline/algorithms/knots.py:113`). -/
def pyIdx (n : ℕ) (i : ℤ) : Py ℕ :=
  if 0 ≤ i ∧ i < n then .ok i.toNat
  else if i < 0 ∧ -(n : ℤ) ≤ i then .ok (i + n).toNat
  else .error .indexError

/-- `l[i]`.  Integer indexing such as `knot_vector[mid]` (`spline/algorithms/knots.py:54`). -/
def pyGet {α : Type} (l : List α) (i : ℤ) : Py α := do
  let k ← pyIdx l.length i
  match l[k]? with
  | some x => .ok x
  | none => .error .indexError

/-- `l[i] = v` (the new list is returned).  As in `N[r] = …` (`spline/algorithms/basis.py:49`). -/
def pySet {α : Type} (l : List α) (i : ℤ) (v : α) : Py (List α) := do
  let k ← pyIdx l.length i
  .ok (l.set k v)

/-- `m[i, j]` on a 2-D array.  As in `ndu[r, j - 1]` (`spline/algorithms/basis.py:111`). -/
def get2 {α : Type} (m : List (List α)) (i j : ℤ) : Py α := do
  let r ← pyGet m i
  pyGet r j

/-- `m[i, j] = v` on a 2-D array.  As in `ndu[j, r] = …` (`spline/algorithms/basis.py:110`). -/
def set2 {α : Type} (m : List (List α)) (i j : ℤ) (v : α) : Py (List (List α)) := do
  let r ← pyGet m i
  let r' ← pySet r j v
  pySet m i r'

/-- A slice bound, clipped as Python does.  As for `knot_vector[:degree + 1]`
(`spline/algorithms/knots.py:110`). -/
def clipBound (n : ℕ) (i : ℤ) : ℕ :=
  if i < 0 then (i + n).toNat else min i.toNat n

/-- `l[lo:hi]`.  As in `knot_vector[:degree + 1]` (`spline/algorithms/knots.py:110`). -/
def pySlice {α : Type} (l : List α) (lo hi : ℤ) : List α :=
  let a := clipBound l.length lo
  let b := clipBound l.length hi
  (l.drop a).take (b - a)

/-! ## Loops -/

/-- `for i in range(a, b)` with state `s`, for non-negative bounds.  As in
`spline/algorithms/basis.py:41, 47`. -/
def forN {σ : Type} (a b : ℕ) (s : σ) (f : ℕ → σ → Py σ) : Py σ :=
  (List.range' a (b - a)).foldlM (fun s i => f i s) s

/-- `range(a, b)` for arbitrary integers.  As in `spline/algorithms/knots.py:230`. -/
def pyRange (a b : ℤ) : List ℤ := (List.range (b - a).toNat).map fun (k : ℕ) => a + (k : ℤ)

/-- `for i in range(a, b)` with state `s`, for arbitrary integer bounds.  As in
`spline/algorithms/knots.py:230, 250`. -/
def forZ {σ : Type} (a b : ℤ) (s : σ) (f : ℤ → σ → Py σ) : Py σ :=
  (pyRange a b).foldlM (fun s i => f i s) s

/-- `for x in l` with state `s`.  As in `fit/io/text.py:207-208`. -/
def forL {α σ : Type} (l : List α) (s : σ) (f : α → σ → Py σ) : Py σ :=
  l.foldlM (fun s x => f x s) s

/-- A list comprehension `[f(x) for x in l]`.  As in `spline/model/bspline.py:64` and
`fit/algorithms/parameterize.py:152`. -/
def mapPy {α β : Type} (f : α → Py β) : List α → Py (List β)
  | [] => .ok []
  | x :: xs => do
    let y ← f x
    let ys ← mapPy f xs
    .ok (y :: ys)

/-! ## Arithmetic -/

section arith
variable {K : Type} [Field K] [LinearOrder K]

/-- `a / b`.  As in `spline/algorithms/basis.py:48`. -/
def pyDiv (a b : K) : Py K := if b = 0 then .error .nonfinite else .ok (a / b)

/-- `np.zeros(n)` (`spline/algorithms/basis.py:37-38`). -/
def zeros (n : ℕ) : List K := List.replicate n 0
/-- `np.ones(n)` (`spline/algorithms/basis.py:34`). -/
def ones (n : ℕ) : List K := List.replicate n 1
/-- `np.zeros((n, m))` (`spline/algorithms/basis.py:95`). -/
def zeros2 (n m : ℕ) : List (List K) := List.replicate n (zeros m)
/-- `np.ones((n, m))` (`spline/algorithms/basis.py:97`). -/
def ones2 (n m : ℕ) : List (List K) := List.replicate n (ones m)

/-- `np.isclose(a, b, rtol, atol)` : `|a - b| <= atol + rtol * |b|`
(`spline/algorithms/knots.py:39, 169`). -/
def isclose (a b rtol atol : K) : Bool := decide (|a - b| ≤ atol + rtol * |b|)

/-- numpy's default `atol = 1e-8`.  It applies in `spline/algorithms/knots.py:39, 110, 113, 169`. -/
def atolDefault : K := 1 / 10 ^ 8
/-- numpy's default `rtol = 1e-5`.  It applies in `spline/algorithms/knots.py:110, 113, 169`. -/
def rtolDefault : K := 1 / 10 ^ 5

/-- `np.isclose(a, b)` with default tolerances (`spline/algorithms/knots.py:169`). -/
def iscloseD (a b : K) : Bool := isclose a b rtolDefault atolDefault

/-- `a @ b` for 1-D arrays: lengths must agree (`spline/model/bspline.py:40-42`). -/
def dot (a b : List K) : Py K :=
  if a.length = b.length then .ok ((List.zipWith (· * ·) a b).sum) else .error .valueError

/-- Column `c` of a 2-D array, `m[:, c]` (`spline/model/bspline.py:40-42, 102-103`). -/
def column (m : List (List K)) (c : ℤ) : Py (List K) := mapPy (fun r => pyGet r c) m

/-- `np.linspace(a, b, num)` for `num : ℤ` : negative `num` raises `ValueError`,
`num = 1` gives `[a]`, otherwise entry `i` is `a + i * ((b - a)/(num - 1))`
(`spline/algorithms/knots.py:145`, `fit/algorithms/initialization.py:43-45`). -/
def linspace (a b : K) (num : ℤ) : Py (List K) :=
  if num < 0 then .error .valueError
  else if num = 1 then .ok [a]
  else .ok ((List.range num.toNat).map fun (i : ℕ) => a + (i : K) * ((b - a) / ((num : K) - 1)))

end arith

/-! ## Total-correctness rules -/

/-- `x` returns normally and its value satisfies `Q`. -/
def Returns {α : Type} (x : Py α) (Q : α → Prop) : Prop := ∃ a, x = .ok a ∧ Q a

namespace Returns
variable {α β σ : Type}

theorem ok {a : α} {Q : α → Prop} (h : Q a) : Returns (.ok a) Q := ⟨a, rfl, h⟩

theorem pure {a : α} {Q : α → Prop} (h : Q a) : Returns (Pure.pure a : Py α) Q := ⟨a, rfl, h⟩

theorem of_eq {x : Py α} {a : α} {Q : α → Prop} (hx : x = .ok a) (h : Q a) : Returns x Q :=
  ⟨a, hx, h⟩

theorem mono {x : Py α} {P Q : α → Prop} (h : Returns x P) (hPQ : ∀ a, P a → Q a) :
    Returns x Q := by
  obtain ⟨a, ha, hp⟩ := h
  exact ⟨a, ha, hPQ a hp⟩

theorem bind {x : Py α} {f : α → Py β} {P : α → Prop} {Q : β → Prop}
    (h : Returns x P) (hf : ∀ a, P a → Returns (f a) Q) : Returns (x >>= f) Q := by
  obtain ⟨a, rfl, hp⟩ := h
  exact hf a hp

theorem eq_ok {x : Py α} {a : α} (h : Returns x (· = a)) : x = .ok a := by
  obtain ⟨b, hb, rfl⟩ := h
  exact hb

private theorem foldlM_range' (f : ℕ → σ → Py σ) (Inv : ℕ → σ → Prop) (n : ℕ) :
    ∀ (a : ℕ) (s : σ), Inv a s →
      (∀ i s, a ≤ i → i < a + n → Inv i s → Returns (f i s) (Inv (i + 1))) →
      Returns ((List.range' a n).foldlM (fun s i => f i s) s) (Inv (a + n)) := by
  induction n with
  | zero => intro a s h _; exact ⟨s, rfl, h⟩
  | succ n ih =>
    intro a s h hs
    rw [List.range'_succ, List.foldlM_cons]
    refine Returns.bind (hs a s le_rfl (by omega) h) fun s' hs' => ?_
    have := ih (a + 1) s' hs' fun i t h1 h2 => hs i t (by omega) (by omega)
    rwa [Nat.add_right_comm] at this

/-- Invariant rule for `forN`. -/
theorem forN {a b : ℕ} {s : σ} {f : ℕ → σ → Py σ} (Inv : ℕ → σ → Prop) (hab : a ≤ b)
    (h0 : Inv a s)
    (hstep : ∀ i s, a ≤ i → i < b → Inv i s → Returns (f i s) (Inv (i + 1))) :
    Returns (PySpline.forN a b s f) (Inv b) := by
  have h := foldlM_range' f Inv (b - a) a s h0 fun i t h1 h2 => hstep i t h1 (by omega)
  have e : a + (b - a) = b := by omega
  rw [e] at h
  exact h

/-- Invariant rule for `forL`, the invariant speaks about the prefix already processed. -/
theorem forL {l : List α} {s : σ} {f : α → σ → Py σ} (Inv : List α → σ → Prop)
    (h0 : Inv [] s)
    (hstep : ∀ pre x post s, l = pre ++ x :: post → Inv pre s →
      Returns (f x s) (Inv (pre ++ [x]))) :
    Returns (PySpline.forL l s f) (Inv l) := by
  suffices H : ∀ (post pre : List α) (s : σ), l = pre ++ post → Inv pre s →
      Returns (post.foldlM (fun s x => f x s) s) (Inv l) from H l [] s rfl h0
  intro post
  induction post with
  | nil => intro pre s hl h; simp at hl; subst hl; exact ⟨s, rfl, h⟩
  | cons x post ih =>
    intro pre s hl h
    rw [List.foldlM_cons]
    refine Returns.bind (hstep pre x post s hl h) fun s' hs' => ?_
    exact ih (pre ++ [x]) s' (by simp [hl]) hs'

end Returns

/-- `forZ` with a non-negative lower bound is `forN`. -/
theorem forZ_eq_forN {σ : Type} (a : ℕ) (b : ℤ) (s : σ) (f : ℤ → σ → Py σ) :
    forZ a b s f = forN a b.toNat s fun i s => f (i : ℤ) s := by
  unfold forZ forN pyRange
  have h : (b - (a : ℤ)).toNat = b.toNat - a := by omega
  rw [h, List.range'_eq_map_range, List.foldlM_map, List.foldlM_map]
  simp

theorem forZ_empty {σ : Type} {a b : ℤ} (h : b ≤ a) (s : σ) (f : ℤ → σ → Py σ) :
    forZ a b s f = .ok s := by
  unfold forZ pyRange
  have : (b - a).toNat = 0 := by omega
  rw [this]; rfl

theorem forN_empty {σ : Type} {a b : ℕ} (h : b ≤ a) (s : σ) (f : ℕ → σ → Py σ) :
    forN a b s f = .ok s := by
  unfold forN
  have : b - a = 0 := by omega
  rw [this]; rfl

theorem forN_succ_left {σ : Type} {a b : ℕ} (h : a < b) (s : σ) (f : ℕ → σ → Py σ) :
    forN a b s f = f a s >>= fun s' => forN (a + 1) b s' f := by
  unfold forN
  have : b - a = (b - (a + 1)) + 1 := by omega
  rw [this, List.range'_succ, List.foldlM_cons]

theorem Returns.forZ {σ : Type} {a b : ℤ} {s : σ} {f : ℤ → σ → Py σ} (Inv : ℤ → σ → Prop)
    (hab : a ≤ b) (h0 : Inv a s)
    (hstep : ∀ i s, a ≤ i → i < b → Inv i s → Returns (f i s) (Inv (i + 1))) :
    Returns (PySpline.forZ a b s f) (Inv b) := by
  have h := Returns.forN (a := 0) (b := (b - a).toNat) (s := s)
    (f := fun i s => f (a + (i : ℤ)) s) (fun i s => Inv (a + (i : ℤ)) s) (Nat.zero_le _)
    (by simpa using h0)
    (fun i s _ h2 hi => by
      have := hstep (a + i) s (by omega) (by omega) hi
      refine this.mono fun s' hs' => ?_
      have e : a + ((i + 1 : ℕ) : ℤ) = a + (i : ℤ) + 1 := by push_cast; ring
      rw [e]; exact hs')
  have e : a + ((b - a).toNat : ℤ) = b := by omega
  simp only [e] at h
  have e2 : PySpline.forZ a b s f
      = PySpline.forN 0 (b - a).toNat s fun i s => f (a + (i : ℤ)) s := by
    unfold PySpline.forZ PySpline.forN pyRange
    rw [List.foldlM_map, List.range_eq_range']
    simp
  rw [e2]
  exact h

/-! ## Indexing lemmas -/

section idx
variable {α : Type}

theorem pyIdx_nat {n : ℕ} {i : ℤ} (k : ℕ) (hi : i = k) (hk : k < n) : pyIdx n i = .ok k := by
  subst hi
  unfold pyIdx
  rw [if_pos (by constructor <;> omega)]
  simp

theorem pyGet_nat (l : List α) (i : ℤ) (k : ℕ) (d : α) (hi : i = k) (hk : k < l.length) :
    pyGet l i = .ok (l.getD k d) := by
  unfold pyGet
  rw [pyIdx_nat k hi hk]
  simp [List.getElem?_eq_getElem hk, List.getD_eq_getElem?_getD]

theorem pySet_nat (l : List α) (i : ℤ) (k : ℕ) (v : α) (hi : i = k) (hk : k < l.length) :
    pySet l i v = .ok (l.set k v) := by
  unfold pySet
  rw [pyIdx_nat k hi hk]
  simp

theorem getD_set (l : List α) (k j : ℕ) (v d : α) (hk : k < l.length) :
    (l.set k v).getD j d = if j = k then v else l.getD j d := by
  by_cases h : j = k
  · subst h; simp [List.getD_eq_getElem?_getD, hk]
  · simp [List.getD_eq_getElem?_getD, h, List.getElem?_set_ne (Ne.symm h)]

/-- A 2-D array with `r` rows and `c` columns. -/
def Shape (m : List (List α)) (r c : ℕ) : Prop := m.length = r ∧ ∀ row ∈ m, row.length = c

/-- Entry `(i, j)` of a 2-D array, `d` outside. -/
def at2 (m : List (List α)) (i j : ℕ) (d : α) : α := (m.getD i []).getD j d

theorem Shape.row {m : List (List α)} {r c : ℕ} (h : Shape m r c) {i : ℕ} (hi : i < r) :
    (m.getD i []).length = c := by
  have hi' : i < m.length := by rw [h.1]; exact hi
  rw [List.getD_eq_getElem?_getD, List.getElem?_eq_getElem hi']
  exact h.2 _ (List.getElem_mem hi')

theorem get2_nat {m : List (List α)} {r c : ℕ} (h : Shape m r c) (i j : ℤ) (a b : ℕ) (d : α)
    (hi : i = a) (hj : j = b) (ha : a < r) (hb : b < c) :
    get2 m i j = .ok (at2 m a b d) := by
  unfold get2 at2
  rw [pyGet_nat m i a [] hi (by rw [h.1]; exact ha)]
  simp only [ok_bind]
  rw [pyGet_nat _ j b d hj (by rw [h.row ha]; exact hb)]

theorem set2_nat {m : List (List α)} {r c : ℕ} (h : Shape m r c) (i j : ℤ) (a b : ℕ) (v d : α)
    (hi : i = a) (hj : j = b) (ha : a < r) (hb : b < c) :
    ∃ m', set2 m i j v = .ok m' ∧ Shape m' r c ∧
      ∀ x y, at2 m' x y d = if x = a ∧ y = b then v else at2 m x y d := by
  have ha' : a < m.length := by rw [h.1]; exact ha
  refine ⟨m.set a ((m.getD a []).set b v), ?_, ⟨by simp [h.1], ?_⟩, ?_⟩
  · unfold set2
    rw [pyGet_nat m i a [] hi ha']
    simp only [ok_bind]
    rw [pySet_nat _ j b v hj (by rw [h.row ha]; exact hb)]
    simp only [ok_bind]
    rw [pySet_nat _ i a _ hi ha']
  · intro row hrow
    rcases List.mem_or_eq_of_mem_set hrow with h1 | h1
    · exact h.2 _ h1
    · rw [h1, List.length_set]; exact h.row ha
  · intro x y
    unfold at2
    rw [getD_set _ _ _ _ _ ha']
    by_cases hx : x = a
    · subst hx
      simp only [if_true, true_and]
      rw [getD_set _ _ _ _ _ (by rw [h.row ha]; exact hb)]
    · simp [hx]

theorem shape_replicate (n m : ℕ) (v : α) :
    Shape (List.replicate n (List.replicate m v)) n m :=
  ⟨by simp, by intro row hrow; rw [List.eq_of_mem_replicate hrow]; simp⟩

theorem at2_replicate (n m i j : ℕ) (v d : α) (hi : i < n) (hj : j < m) :
    at2 (List.replicate n (List.replicate m v)) i j d = v := by
  unfold at2
  simp [List.getD_eq_getElem?_getD, hi, hj]

theorem mapPy_eq_ok {β : Type} (f : α → Py β) (g : α → β) (l : List α)
    (h : ∀ x ∈ l, f x = .ok (g x)) : mapPy f l = .ok (l.map g) := by
  induction l with
  | nil => rfl
  | cons x xs ih =>
    unfold mapPy
    rw [h x (by simp), ih (fun y hy => h y (by simp [hy]))]
    rfl

end idx

theorem pyDiv_ok {K : Type} [Field K] [LinearOrder K] {a b : K} (h : b ≠ 0) :
    pyDiv a b = .ok (a / b) := by simp [pyDiv, h]

theorem pyDiv_zero {K : Type} [Field K] [LinearOrder K] {a b : K} (h : b = 0) :
    pyDiv a b = .error .nonfinite := by simp [pyDiv, h]

end PySpline
