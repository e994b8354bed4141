import Verif.Model.Extended
import Mathlib.Algebra.Order.Field.Basic
import Mathlib.Tactic.Ring

/-!
# Runs over numbers and over extended numbers side by side

`Follows f x y`: unless the call `x` divides by zero, the call `y` ends in the same way, with the
image of its result under `f`.
-/

set_option linter.unusedSectionVars false

namespace PySpline

open Ext

/-- Unless `x` divides by zero, `y` is the image of `x`. -/
def Follows {α β : Type} (f : α → β) (x : Py α) (y : Py β) : Prop :=
  x ≠ .error .nonfinite → y = x.map f

namespace Follows
variable {α β γ δ σ τ : Type}

theorem ok {f : α → β} {a : α} {b : β} (h : b = f a) : Follows f (.ok a) (.ok b) := by
  intro _
  rw [h]
  rfl

theorem error {f : α → β} (e : Err) : Follows f (.error e) (.error e) := fun _ => rfl

theorem bind {f : α → β} {g : γ → δ} {x : Py α} {y : Py β} {k : α → Py γ} {k' : β → Py δ}
    (h : Follows f x y) (hk : ∀ a, Follows g (k a) (k' (f a))) : Follows g (x >>= k) (y >>= k') := by
  intro hne
  rcases x with e | a
  · rw [h fun he => hne (by rw [he]; rfl)]
    rfl
  · rw [h (by simp)]
    exact hk a hne

theorem ite {f : α → β} {p q : Prop} [Decidable p] [Decidable q] {x x' : Py α} {y y' : Py β}
    (hpq : p ↔ q) (h1 : Follows f x y) (h2 : Follows f x' y') :
    Follows f (if p then x else x') (if q then y else y') := by
  by_cases h : p
  · rw [if_pos h, if_pos (hpq.1 h)]
    exact h1
  · rw [if_neg h, if_neg fun hq => h (hpq.2 hq)]
    exact h2

theorem foldlM {f : σ → τ} {F : σ → α → Py σ} {G : τ → α → Py τ}
    (h : ∀ i s, Follows f (F s i) (G (f s) i)) (l : List α) (s : σ) :
    Follows f (l.foldlM F s) (l.foldlM G (f s)) := by
  induction l generalizing s with
  | nil => exact Follows.ok rfl
  | cons x xs ih =>
    rw [List.foldlM_cons, List.foldlM_cons]
    exact Follows.bind (h x s) fun s' => ih s'

theorem forN {f : σ → τ} {a b : ℕ} {s : σ} {t : τ} {F : ℕ → σ → Py σ} {G : ℕ → τ → Py τ} (ht : t = f s)
    (h : ∀ i s, Follows f (F i s) (G i (f s))) : Follows f (PySpline.forN a b s F) (PySpline.forN a b t G) := by
  subst ht
  exact Follows.foldlM (fun i s => h i s) _ s

theorem forZ {f : σ → τ} {a b : ℤ} {s : σ} {t : τ} {F : ℤ → σ → Py σ} {G : ℤ → τ → Py τ} (ht : t = f s)
    (h : ∀ i s, Follows f (F i s) (G i (f s))) : Follows f (PySpline.forZ a b s F) (PySpline.forZ a b t G) := by
  subst ht
  exact Follows.foldlM (fun i s => h i s) _ s

theorem mapPy {f : α → β} {g : γ → δ} {F : α → Py γ} {G : β → Py δ} (h : ∀ x, Follows g (F x) (G (f x)))
    (l : List α) : Follows (List.map g) (PySpline.mapPy F l) (PySpline.mapPy G (l.map f)) := by
  induction l with
  | nil => exact Follows.ok rfl
  | cons x xs ih =>
    exact Follows.bind (h x) fun y => Follows.bind ih fun ys => Follows.ok rfl

theorem get {f : α → β} (l : List α) (i : ℤ) : Follows f (pyGet l i) (pyGet (l.map f) i) := by
  intro _
  unfold pyGet
  rw [List.length_map]
  rcases pyIdx l.length i with e | k
  · rfl
  · rw [ok_bind, ok_bind, List.getElem?_map]
    rcases l[k]? with _ | x <;> rfl

theorem set {f : α → β} (l : List α) (i : ℤ) {v : α} {w : β} (h : w = f v) :
    Follows (List.map f) (pySet l i v) (pySet (l.map f) i w) := by
  intro _
  subst h
  unfold pySet
  rw [List.length_map]
  rcases pyIdx l.length i with e | k
  · rfl
  · rw [ok_bind, ok_bind, ← List.map_set]
    rfl

theorem get2 {f : α → β} (m : List (List α)) (i j : ℤ) :
    Follows f (PySpline.get2 m i j) (PySpline.get2 (m.map (List.map f)) i j) :=
  Follows.bind (Follows.get m i) fun r => Follows.get r j

theorem set2 {f : α → β} (m : List (List α)) (i j : ℤ) {v : α} {w : β} (h : w = f v) :
    Follows (List.map (List.map f)) (PySpline.set2 m i j v) (PySpline.set2 (m.map (List.map f)) i j w) :=
  Follows.bind (Follows.get m i) fun r => Follows.bind (Follows.set r j h) fun _ => Follows.set m i rfl

theorem of_eq {f : α → β} {x : Py α} {y : Py β} (h : y = x.map f) : Follows f x y := fun _ => h

theorem value {f : α → β} {x : Py α} {y : Py β} (h : Follows f x y) {a : α} (hx : x = .ok a) : y = .ok (f a) := by
  rw [h (by rw [hx]; simp), hx]
  rfl

end Follows

section
variable {K : Type} [Field K] [LinearOrder K]

/-- A 1-D array of numbers as an array of extended numbers. -/
abbrev lift1 : List K → List (Ext K) := List.map fin

/-- A 2-D array of numbers as an array of extended numbers. -/
abbrev lift2 : List (List K) → List (List (Ext K)) := List.map (List.map fin)

theorem fin_add (x y : K) : fin x + fin y = fin (x + y) := rfl
theorem fin_sub (x y : K) : fin x - fin y = fin (x - y) := rfl
theorem fin_mul (x y : K) : fin x * fin y = fin (x * y) := rfl
theorem fin_div (x : K) {y : K} (h : y ≠ 0) : fin x / fin y = fin (x / y) := by
  show (if y = 0 then _ else fin (x / y)) = fin (x / y)
  rw [if_neg h]

theorem Follows.div (a b : K) : Follows fin (pyDiv a b) (divE (fin a) (fin b)) := by
  intro hne
  unfold pyDiv at *
  by_cases h : b = 0
  · rw [if_pos h] at hne
    exact absurd rfl hne
  · rw [if_neg h]
    unfold divE
    rw [fin_div a h]
    rfl

theorem sum_lift (l : List K) : (l.map fin).sum = fin l.sum := by
  induction l with
  | nil => rfl
  | cons x xs ih => rw [List.map_cons, List.sum_cons, ih, List.sum_cons]; rfl

theorem zipWith_lift (f : K → K → K) (g : Ext K → Ext K → Ext K) (h : ∀ x y, g (fin x) (fin y) = fin (f x y))
    (a b : List K) : List.zipWith g (a.map fin) (b.map fin) = (List.zipWith f a b).map fin := by
  induction a generalizing b with
  | nil => rfl
  | cons x xs ih =>
    cases b with
    | nil => rfl
    | cons y ys => simp only [List.map_cons, List.zipWith_cons_cons, ih, h]

theorem getD_lift (l : List K) (i : ℕ) : (l.map fin).getD i 0 = fin (l.getD i 0) := by
  rw [List.getD_eq_getElem?_getD, List.getD_eq_getElem?_getD, List.getElem?_map]
  rcases l[i]? with _ | x <;> rfl

theorem lt_lift (x y : K) : lt (fin x) (fin y) = true ↔ x < y := by
  show decide (x < y) = true ↔ _
  rw [decide_eq_true_iff]

theorem eqv_lift (x y : K) : eqv (fin x) (fin y) = true ↔ x = y := by
  show decide (x = y) = true ↔ _
  rw [decide_eq_true_iff]

theorem le_lift (x y : K) : le (fin x) (fin y) = true ↔ x ≤ y := by
  unfold Ext.le
  rw [Bool.or_eq_true, lt_lift, eqv_lift, le_iff_lt_or_eq]

theorem isclose_lift (a b rtol atol : K) :
    Ext.isclose (fin a) (fin b) (fin rtol) (fin atol) = isclose a b rtol atol := by
  unfold Ext.isclose isclose
  rw [if_pos (by rfl)]
  rw [Bool.eq_iff_iff, decide_eq_true_iff]
  exact le_lift _ _

theorem iscloseDE_lift (a b : K) : iscloseDE (fin a) (fin b) = iscloseD a b := isclose_lift _ _ _ _

theorem replicate_zero (n : ℕ) : (List.replicate n 0 : List (Ext K)) = (zeros n).map fin := by
  unfold zeros
  rw [List.map_replicate]
  rfl

theorem replicate_one (n : ℕ) : (List.replicate n 1 : List (Ext K)) = (ones n).map fin := by
  unfold ones
  rw [List.map_replicate]
  rfl

theorem zeros2E_lift (n m : ℕ) : (zeros2E n m : List (List (Ext K))) = (zeros2 n m).map (List.map fin) := by
  unfold zeros2E zeros2
  rw [List.map_replicate, replicate_zero]

theorem ones2E_lift (n m : ℕ) : (ones2E n m : List (List (Ext K))) = (ones2 n m).map (List.map fin) := by
  unfold ones2E ones2
  rw [List.map_replicate, replicate_one]

theorem pySlice_map {α β : Type} (f : α → β) (l : List α) (a b : ℤ) :
    pySlice (l.map f) a b = (pySlice l a b).map f := by
  unfold pySlice
  rw [List.length_map, List.map_take, List.map_drop]

/-! ## `knots.py` -/

theorem findSpanLoopE_follows (knot : K) (U : List K) :
    ∀ fuel low high mid, Follows id (findSpanLoop knot U fuel low high mid)
      (findSpanLoopE (fin knot) (lift1 U) fuel low high mid) := by
  intro fuel
  induction fuel with
  | zero => intro low high mid; exact Follows.error _
  | succ fuel ih =>
    intro low high mid
    refine Follows.bind (Follows.get _ _) fun a => ?_
    refine Follows.ite (lt_lift _ _).symm (ih _ _ _) ?_
    refine Follows.bind (Follows.get _ _) fun b => ?_
    exact Follows.ite (lt_lift _ _).symm (ih _ _ _) (Follows.ok rfl)

theorem findSpanE_follows (n p : ℕ) (knot : K) (U : List K) :
    Follows id (findSpan n p knot U) (findSpanE n p (fin knot) (lift1 U)) := by
  unfold findSpan findSpanE findSpanWith findSpanFuelE
  refine Follows.bind (Follows.get _ _) fun e => ?_
  refine Follows.ite ?_ (Follows.ok rfl) (findSpanLoopE_follows _ _ _ _ _ _)
  rw [isclose_lift]

theorem max2_lift (a b : K) : max2 (fin a) (fin b) = fin (max a b) := by
  unfold max2
  rw [if_neg (by simp), if_neg (by simp)]
  by_cases h : a < b
  · rw [if_pos (by exact (lt_lift a b).2 h), max_eq_right h.le]
  · rw [if_neg (fun hh => h ((lt_lift a b).1 hh)), max_eq_left (not_lt.1 h)]

theorem min2_lift (a b : K) : min2 (fin a) (fin b) = fin (min a b) := by
  unfold min2
  rw [if_neg (by simp), if_neg (by simp)]
  by_cases h : b < a
  · rw [if_pos (by exact (lt_lift b a).2 h), min_eq_right h.le]
  · rw [if_neg (fun hh => h ((lt_lift b a).1 hh)), min_eq_left (not_lt.1 h)]

theorem foldl_lift (f : K → K → K) (g : Ext K → Ext K → Ext K) (h : ∀ x y, g (fin x) (fin y) = fin (f x y))
    (l : List K) (x : K) : (l.map fin).foldl g (fin x) = fin (l.foldl f x) := by
  induction l generalizing x with
  | nil => rfl
  | cons y ys ih => rw [List.map_cons, List.foldl_cons, h, ih, List.foldl_cons]

theorem npMaxE_follows (U : List K) : Follows fin (npMax U) (npMaxE (lift1 U)) := by
  cases U with
  | nil => exact Follows.error _
  | cons x xs => exact Follows.ok (foldl_lift _ _ max2_lift _ _)

theorem npMinE_follows (U : List K) : Follows fin (npMin U) (npMinE (lift1 U)) := by
  cases U with
  | nil => exact Follows.error _
  | cons x xs => exact Follows.ok (foldl_lift _ _ min2_lift _ _)

theorem normalizeE_follows (U : List K) : Follows lift1 (normalize U) (normalizeE (lift1 U)) := by
  unfold normalize normalizeE
  refine Follows.bind (npMaxE_follows U) fun a => ?_
  refine Follows.bind (npMinE_follows U) fun b => ?_
  dsimp only
  refine Follows.bind (Follows.div 1 (a - b)) fun q => ?_
  refine Follows.ok ?_
  rw [List.map_map, List.map_map, List.map_map]
  show _ = List.map fin (List.map _ U)
  rw [List.map_map]
  rfl

theorem increasingFromE_lift (x : K) (l : List K) : increasingFromE (fin x) (lift1 l) = increasingFrom x l := by
  induction l generalizing x with
  | nil => rfl
  | cons y ys ih =>
    show (if lt (fin y) (fin x) = true then false else increasingFromE (fin y) (lift1 ys)) = _
    rw [ih]
    show _ = if y < x then false else increasingFrom y ys
    exact if_congr (lt_lift y x) rfl rfl

theorem checkNormalizedE_follows (p : ℕ) (kv : List K) (n : ℕ) :
    Follows id (checkNormalized p kv n) (checkNormalizedE p (lift1 kv) n) := by
  unfold checkNormalized checkNormalizedE
  refine Follows.ite (by rw [List.length_map]) (Follows.ok rfl) ?_
  refine Follows.ite ?_ (Follows.ok rfl) ?_
  · rw [pySlice_map, List.all_map]
    have : ((fun b => iscloseDE 0 b) ∘ fin : K → Bool) = fun b => iscloseD 0 b := by
      funext b
      exact iscloseDE_lift 0 b
    rw [this]
  · refine Follows.bind (Follows.get _ _) fun e => ?_
    refine Follows.ite (by rw [← iscloseDE_lift]; rfl) (Follows.ok rfl) ?_
    refine Follows.bind (Follows.get _ _) fun x => ?_
    exact Follows.ok (increasingFromE_lift x kv)

theorem findMultiplicityE_lift (u : K) (U : List K) :
    findMultiplicityE (fin u) (lift1 U) = findMultiplicity u U := by
  unfold findMultiplicityE findMultiplicity
  rw [List.foldl_map]
  simp only [iscloseDE_lift]

theorem assignRowE_follows (m : List (List K)) (i : ℤ) {v : List K} {w : List (Ext K)} (hw : w = lift1 v) :
    Follows lift2 (assignRow m i v) (assignRowE (lift2 m) i w) := by
  subst hw
  unfold assignRow assignRowE
  refine Follows.bind (Follows.get _ _) fun row => ?_
  refine Follows.ite (by rw [List.length_map, List.length_map]) (Follows.set _ _ rfl) ?_
  refine Follows.ite (by rw [List.length_map]) (Follows.set _ _ ?_) (Follows.error _)
  rw [List.length_map, List.map_replicate, getD_lift]

theorem rowCombE_lift (a b : K) (x y : List K) :
    rowCombE (fin a) (lift1 x) (fin b) (lift1 y) = lift1 (rowComb a x b y) :=
  zipWith_lift (fun s t => a * s + b * t) _ (fun _ _ => rfl) x y

theorem curveKnotInsertionE_follows (p : ℕ) (U : List K) (P : List (List K)) (u : K) (r : ℕ) :
    Follows (Prod.map lift1 lift2) (curveKnotInsertion p U P u r)
      (curveKnotInsertionE p (lift1 U) (lift2 P) (fin u) r) := by
  unfold curveKnotInsertion curveKnotInsertionE
  rw [List.length_map, List.length_map, findMultiplicityE_lift, replicate_zero, zeros2E_lift, zeros2E_lift]
  refine Follows.bind (findSpanE_follows _ _ _ _) fun k => ?_
  dsimp only [id]
  refine Follows.bind (Follows.forZ rfl fun i kv => Follows.bind (Follows.get _ _) fun x => Follows.set _ _ rfl)
    fun kv1 => ?_
  refine Follows.bind (Follows.forZ rfl fun i kv => Follows.set _ _ rfl) fun kv2 => ?_
  refine Follows.bind (Follows.forZ rfl fun i kv => Follows.bind (Follows.get _ _) fun x => Follows.set _ _ rfl)
    fun kv3 => ?_
  refine Follows.bind (Follows.forZ rfl fun i kv => Follows.bind (Follows.get _ _) fun x =>
    assignRowE_follows _ _ rfl) fun P1 => ?_
  refine Follows.bind (Follows.forZ rfl fun i kv => Follows.bind (Follows.get _ _) fun x =>
    assignRowE_follows _ _ rfl) fun P2 => ?_
  refine Follows.bind (Follows.forZ rfl fun i kv => Follows.bind (Follows.get _ _) fun x =>
    assignRowE_follows _ _ rfl) fun R => ?_
  refine Follows.bind (f := Prod.map lift2 lift2) (Follows.forZ rfl ?_) ?_
  · rintro j ⟨Q, R⟩
    dsimp only [Prod.map]
    refine Follows.bind (Follows.forZ rfl fun i R => ?_) fun R => ?_
    · refine Follows.bind (Follows.get _ _) fun a => ?_
      refine Follows.bind (Follows.get _ _) fun b => ?_
      refine Follows.bind (Follows.div _ _) fun al => ?_
      refine Follows.bind (Follows.get _ _) fun x => ?_
      refine Follows.bind (Follows.get _ _) fun y => ?_
      exact assignRowE_follows _ _ (rowCombE_lift _ _ _ _)
    · refine Follows.bind (Follows.get _ _) fun r0 => ?_
      refine Follows.bind (assignRowE_follows _ _ rfl) fun Q => ?_
      refine Follows.bind (Follows.get _ _) fun r1 => ?_
      refine Follows.bind (assignRowE_follows _ _ rfl) fun Q => ?_
      exact Follows.ok rfl
  · rintro ⟨Q, R⟩
    dsimp only [Prod.map]
    refine Follows.bind (Follows.forZ rfl fun i m => Follows.bind (Follows.get _ _) fun x =>
      assignRowE_follows _ _ rfl) fun P1 => ?_
    exact Follows.ok rfl

/-! ## `basis.py` -/

theorem basisFunctionsE_follows (span : ℤ) (u : K) (p : ℕ) (U : List K) :
    Follows lift1 (basisFunctions span u p U) (basisFunctionsE span (fin u) p (lift1 U)) := by
  unfold basisFunctions basisFunctionsE
  rw [replicate_zero, replicate_one]
  refine Follows.bind (f := Prod.map lift1 (Prod.map lift1 lift1)) (Follows.forN rfl ?_) ?_
  · rintro j ⟨N, left, right⟩
    dsimp only [Prod.map]
    refine Follows.bind (Follows.get _ _) fun a => ?_
    refine Follows.bind (Follows.set _ _ rfl) fun left => ?_
    refine Follows.bind (Follows.get _ _) fun b => ?_
    refine Follows.bind (Follows.set _ _ rfl) fun right => ?_
    refine Follows.bind (f := Prod.map lift1 fin) (Follows.forN rfl ?_) ?_
    · rintro r ⟨N, saved⟩
      dsimp only [Prod.map]
      refine Follows.bind (Follows.get _ _) fun nr => ?_
      refine Follows.bind (Follows.get _ _) fun rr => ?_
      refine Follows.bind (Follows.get _ _) fun lf => ?_
      refine Follows.bind (Follows.div _ _) fun t => ?_
      refine Follows.bind (Follows.set _ _ rfl) fun N => ?_
      exact Follows.ok rfl
    · rintro ⟨N, saved⟩
      dsimp only [Prod.map]
      refine Follows.bind (Follows.set _ _ rfl) fun N => ?_
      exact Follows.ok rfl
  · rintro ⟨N, left, right⟩
    exact Follows.ok rfl

theorem nduTableE_follows (span : ℤ) (u : K) (p : ℕ) (U : List K) :
    Follows lift2 (nduTable span u p U) (nduTableE span (fin u) p (lift1 U)) := by
  unfold nduTable nduTableE
  rw [replicate_one, ones2E_lift]
  dsimp only
  refine Follows.bind (Follows.set2 _ _ _ rfl) fun ndu => ?_
  refine Follows.bind (f := Prod.map lift2 (Prod.map lift1 lift1)) (Follows.forN rfl ?_) ?_
  · rintro j ⟨N, left, right⟩
    dsimp only [Prod.map]
    refine Follows.bind (Follows.get _ _) fun a => ?_
    refine Follows.bind (Follows.set _ _ rfl) fun left => ?_
    refine Follows.bind (Follows.get _ _) fun b => ?_
    refine Follows.bind (Follows.set _ _ rfl) fun right => ?_
    refine Follows.bind (f := Prod.map lift2 fin) (Follows.forN rfl ?_) ?_
    · rintro r ⟨N, saved⟩
      dsimp only [Prod.map]
      refine Follows.bind (Follows.get _ _) fun rr => ?_
      refine Follows.bind (Follows.get _ _) fun lf => ?_
      refine Follows.bind (Follows.set2 _ _ _ rfl) fun N => ?_
      refine Follows.bind (Follows.get2 _ _ _) fun x => ?_
      refine Follows.bind (Follows.get2 _ _ _) fun y => ?_
      refine Follows.bind (Follows.div _ _) fun t => ?_
      refine Follows.bind (Follows.set2 _ _ _ rfl) fun N => ?_
      exact Follows.ok rfl
    · rintro ⟨N, saved⟩
      dsimp only [Prod.map]
      refine Follows.bind (Follows.set2 _ _ _ rfl) fun N => ?_
      exact Follows.ok rfl
  · rintro ⟨N, left, right⟩
    exact Follows.ok rfl

theorem dersStepE_follows (p : ℕ) (ndu : List (List K)) (r k : ℕ)
    (st : List (List K) × ℤ × ℤ × List (List K)) :
    Follows (Prod.map lift2 (Prod.map id (Prod.map id lift2))) (dersStep p ndu r k st)
      (dersStepE p (lift2 ndu) r k (Prod.map lift2 (Prod.map id (Prod.map id lift2)) st)) := by
  obtain ⟨a, s1, s2, ders⟩ := st
  unfold dersStep dersStepE
  dsimp only [Prod.map, id]
  refine Follows.bind (f := Prod.map lift2 fin) (Follows.ite Iff.rfl ?_ (Follows.ok rfl)) ?_
  · refine Follows.bind (Follows.get2 _ _ _) fun x => ?_
    refine Follows.bind (Follows.get2 _ _ _) fun y => ?_
    refine Follows.bind (Follows.div _ _) fun q => ?_
    refine Follows.bind (Follows.set2 _ _ _ rfl) fun a => ?_
    refine Follows.bind (Follows.get2 _ _ _) fun x => ?_
    refine Follows.bind (Follows.get2 _ _ _) fun y => ?_
    exact Follows.ok rfl
  rintro ⟨a, d⟩
  dsimp only [Prod.map]
  refine Follows.bind (f := Prod.map lift2 fin) (Follows.forZ rfl ?_) ?_
  · rintro j ⟨a, d⟩
    dsimp only [Prod.map]
    refine Follows.bind (Follows.get2 _ _ _) fun x => ?_
    refine Follows.bind (Follows.get2 _ _ _) fun y => ?_
    refine Follows.bind (Follows.get2 _ _ _) fun z => ?_
    refine Follows.bind (Follows.div _ _) fun q => ?_
    refine Follows.bind (Follows.set2 _ _ _ rfl) fun a => ?_
    refine Follows.bind (Follows.get2 _ _ _) fun x => ?_
    refine Follows.bind (Follows.get2 _ _ _) fun y => ?_
    exact Follows.ok rfl
  rintro ⟨a, d⟩
  dsimp only [Prod.map]
  refine Follows.bind (f := Prod.map lift2 fin) (Follows.ite Iff.rfl ?_ (Follows.ok rfl)) ?_
  · refine Follows.bind (Follows.get2 _ _ _) fun x => ?_
    refine Follows.bind (Follows.get2 _ _ _) fun y => ?_
    refine Follows.bind (Follows.div _ _) fun q => ?_
    refine Follows.bind (Follows.set2 _ _ _ rfl) fun a => ?_
    refine Follows.bind (Follows.get2 _ _ _) fun x => ?_
    refine Follows.bind (Follows.get2 _ _ _) fun y => ?_
    exact Follows.ok rfl
  rintro ⟨a, d⟩
  dsimp only [Prod.map]
  refine Follows.bind (Follows.set2 _ _ _ rfl) fun ders => ?_
  exact Follows.ok rfl

theorem basisFunctionDersE_follows (span : ℤ) (u : K) (p : ℕ) (U : List K) (order : ℕ) :
    Follows lift2 (basisFunctionDers span u p U order)
      (basisFunctionDersE span (fin u) p (lift1 U) order) := by
  unfold basisFunctionDers basisFunctionDersE
  rw [zeros2E_lift, ones2E_lift]
  dsimp only
  refine Follows.bind (nduTableE_follows _ _ _ _) fun ndu => ?_
  refine Follows.bind (Follows.forN rfl fun j ders => Follows.bind (Follows.get2 _ _ _) fun x =>
    Follows.set2 _ _ _ rfl) fun ders => ?_
  refine Follows.bind (f := Prod.map lift2 lift2) (Follows.forN rfl ?_) ?_
  · rintro r ⟨a, ders⟩
    dsimp only [Prod.map]
    refine Follows.bind (Follows.set2 _ _ _ rfl) fun a => ?_
    refine Follows.bind (Follows.forN rfl fun k st => dersStepE_follows p ndu r k st) ?_
    rintro ⟨a, s1, s2, ders⟩
    exact Follows.ok rfl
  rintro ⟨a, ders⟩
  dsimp only [Prod.map]
  refine Follows.bind (f := Prod.map lift2 fin) (Follows.forN rfl ?_) ?_
  · rintro k ⟨ders, r⟩
    dsimp only [Prod.map]
    refine Follows.bind (Follows.forN rfl fun j ders => Follows.bind (Follows.get2 _ _ _) fun x =>
      Follows.set2 _ _ _ rfl) fun ders => ?_
    exact Follows.ok rfl
  rintro ⟨ders, r⟩
  exact Follows.ok rfl

theorem oneBasisFunctionE_follows (p : ℕ) (U : List K) (i : ℕ) (u : K) :
    Follows fin (oneBasisFunction p U i u) (oneBasisFunctionE p (lift1 U) i (fin u)) := by
  unfold oneBasisFunction oneBasisFunctionE
  rw [List.length_map, replicate_zero]
  refine Follows.bind (Follows.get _ _) fun first => ?_
  refine Follows.bind (Follows.get _ _) fun last => ?_
  refine Follows.ite (by rw [eqv_lift, eqv_lift]) (Follows.ok rfl) ?_
  refine Follows.bind (Follows.get _ _) fun lo => ?_
  refine Follows.ite (lt_lift _ _).symm (Follows.ok rfl) ?_
  refine Follows.bind (Follows.get _ _) fun hi => ?_
  refine Follows.ite (lt_lift _ _).symm (Follows.ok rfl) ?_
  dsimp only
  refine Follows.bind (Follows.forN rfl fun j N => ?_) fun N => ?_
  · refine Follows.bind (Follows.get _ _) fun a => ?_
    refine Follows.bind (Follows.get _ _) fun b => ?_
    exact Follows.ite (by rw [le_lift, lt_lift]) (Follows.set _ _ rfl) (Follows.ok rfl)
  refine Follows.bind (Follows.forN rfl fun k N => ?_) fun N => Follows.get _ _
  refine Follows.bind (Follows.get _ _) fun n0 => ?_
  refine Follows.bind (f := fin) (Follows.ite (not_congr (eqv_lift _ _).symm) ?_ (Follows.ok rfl)) ?_
  · refine Follows.bind (Follows.get _ _) fun a => ?_
    refine Follows.bind (Follows.get _ _) fun b => ?_
    exact Follows.div _ _
  intro saved
  refine Follows.bind (f := Prod.map lift1 fin) (Follows.forN rfl ?_) ?_
  · rintro j ⟨N, saved⟩
    dsimp only [Prod.map]
    refine Follows.bind (Follows.get _ _) fun ul => ?_
    refine Follows.bind (Follows.get _ _) fun ur => ?_
    refine Follows.bind (Follows.get _ _) fun nj => ?_
    refine Follows.ite (eqv_lift _ _).symm ?_ ?_
    · exact Follows.bind (Follows.set _ _ rfl) fun N => Follows.ok rfl
    · refine Follows.bind (Follows.div _ _) fun t => ?_
      exact Follows.bind (Follows.set _ _ rfl) fun N => Follows.ok rfl
  rintro ⟨N, saved⟩
  exact Follows.ok rfl

theorem oneBasisTableE_follows (p : ℕ) (U : List K) (i : ℕ) (u : K) :
    Follows lift2 (oneBasisTable p U i u) (oneBasisTableE p (lift1 U) i (fin u)) := by
  unfold oneBasisTable oneBasisTableE
  rw [zeros2E_lift]
  dsimp only
  refine Follows.bind (Follows.forN rfl fun j N => ?_) fun N => ?_
  · refine Follows.bind (Follows.get _ _) fun a => ?_
    refine Follows.bind (Follows.get _ _) fun b => ?_
    exact Follows.ite (by rw [le_lift, lt_lift]) (Follows.set2 _ _ _ rfl) (Follows.ok rfl)
  refine Follows.forN rfl fun k N => ?_
  refine Follows.bind (Follows.get2 _ _ _) fun n0 => ?_
  refine Follows.bind (f := fin) (Follows.ite (not_congr (eqv_lift _ _).symm) ?_ (Follows.ok rfl)) ?_
  · refine Follows.bind (Follows.get _ _) fun a => ?_
    refine Follows.bind (Follows.get _ _) fun b => ?_
    exact Follows.div _ _
  intro saved
  refine Follows.bind (f := Prod.map lift2 fin) (Follows.forN rfl ?_) ?_
  · rintro j ⟨N, saved⟩
    dsimp only [Prod.map]
    refine Follows.bind (Follows.get _ _) fun ul => ?_
    refine Follows.bind (Follows.get _ _) fun ur => ?_
    refine Follows.bind (Follows.get2 _ _ _) fun nj => ?_
    refine Follows.ite (eqv_lift _ _).symm ?_ ?_
    · exact Follows.bind (Follows.set2 _ _ _ rfl) fun N => Follows.ok rfl
    · refine Follows.bind (Follows.div _ _) fun t => ?_
      exact Follows.bind (Follows.set2 _ _ _ rfl) fun N => Follows.ok rfl
  rintro ⟨N, saved⟩
  exact Follows.ok rfl

theorem oneBasisFunctionDersE_follows (p : ℕ) (U : List K) (i : ℕ) (u : K) (order : ℕ) :
    Follows lift1 (oneBasisFunctionDers p U i u order) (oneBasisFunctionDersE p (lift1 U) i (fin u) order) := by
  unfold oneBasisFunctionDers oneBasisFunctionDersE
  rw [replicate_zero]
  dsimp only
  refine Follows.bind (Follows.get _ _) fun lo => ?_
  refine Follows.ite (lt_lift _ _).symm (Follows.ok rfl) ?_
  refine Follows.bind (Follows.get _ _) fun hi => ?_
  refine Follows.ite (le_lift _ _).symm (Follows.ok rfl) ?_
  refine Follows.bind (oneBasisTableE_follows _ _ _ _) fun N => ?_
  refine Follows.bind (Follows.get2 _ _ _) fun v => ?_
  refine Follows.bind (Follows.set _ _ rfl) fun ders => ?_
  refine Follows.bind (f := Prod.map lift1 lift1) (Follows.forN rfl ?_) ?_
  · rintro k ⟨ders, ND⟩
    dsimp only [Prod.map]
    refine Follows.bind (Follows.forN rfl fun j ND => Follows.bind (Follows.get2 _ _ _) fun x =>
      Follows.set _ _ rfl) fun ND => ?_
    refine Follows.bind (Follows.forN rfl fun jj ND => ?_) fun ND => ?_
    · refine Follows.bind (Follows.get _ _) fun nd0 => ?_
      refine Follows.bind (f := fin) (Follows.ite (not_congr (eqv_lift _ _).symm) ?_ (Follows.ok rfl)) ?_
      · refine Follows.bind (Follows.get _ _) fun b => ?_
        refine Follows.bind (Follows.get _ _) fun a => ?_
        exact Follows.div _ _
      intro saved
      refine Follows.bind (f := Prod.map lift1 fin) (Follows.forN rfl ?_) ?_
      · rintro j ⟨ND, saved⟩
        dsimp only [Prod.map]
        refine Follows.bind (Follows.get _ _) fun ul => ?_
        refine Follows.bind (Follows.get _ _) fun ur => ?_
        refine Follows.bind (Follows.get _ _) fun nj => ?_
        refine Follows.ite (eqv_lift _ _).symm ?_ ?_
        · exact Follows.bind (Follows.set _ _ rfl) fun N => Follows.ok rfl
        · refine Follows.bind (Follows.div _ _) fun t => ?_
          exact Follows.bind (Follows.set _ _ rfl) fun N => Follows.ok rfl
      rintro ⟨ND, saved⟩
      exact Follows.ok rfl
    refine Follows.bind (Follows.get _ _) fun nd0 => ?_
    exact Follows.bind (Follows.set _ _ rfl) fun ders => Follows.ok rfl
  rintro ⟨ders, ND⟩
  exact Follows.ok rfl

end

end PySpline
