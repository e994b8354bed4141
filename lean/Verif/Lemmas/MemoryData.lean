import Verif.SpecMemoryData
import Verif.Lemmas.MemoryFit

/-!
# The methods of a `BoundaryProblem` in memory follow the value model
-/

set_option linter.unusedSectionVars false

namespace PySpline

section
variable {K : Type}

namespace ProblemMem
variable {w w' w'' : ProblemMem K}

theorem good_of_unwritten (hw : w.Good) {m' : Mem K} (h : Unwritten w.mem m') :
    Good { w with mem := m' } := by
  refine ⟨fun r c e => ?_, fun r e => ?_, fun r e => ?_, fun c e => h.live (hw.initCurve c e), fun r e => ?_,
    fun c e => h.live (hw.fitCurve c e)⟩
  · obtain ⟨h1, h2⟩ := hw.data r c e
    refine ⟨lt_of_lt_of_le h1 h.mats.length_le, ?_⟩
    show ∀ row ∈ m'.mat r, _
    rw [h.mat h1]
    exact h2
  · exact lt_of_lt_of_le (hw.start r e) h.vecs.length_le
  · exact lt_of_lt_of_le (hw.fin r e) h.vecs.length_le
  · exact lt_of_lt_of_le (hw.paramData r e) h.mats.length_le

theorem view_of_unwritten (hw : w.Good) {m' : Mem K} (h : Unwritten w.mem m') :
    view { w with mem := m' } = w.view := by
  have hd : w.self.data.map (fun d => (⟨[(m'.mat d.1).length, d.2], (m'.mat d.1).flatten⟩ : Arr K))
      = w.self.data.map fun d => ⟨[(w.mem.mat d.1).length, d.2], (w.mem.mat d.1).flatten⟩ := by
    cases e : w.self.data with
    | none => rfl
    | some d => simp only [Option.map_some]; rw [h.mat (hw.data d.1 d.2 e).1]
  have hv : ∀ o : Option Ref, (∀ r, o = some r → r < w.mem.vecs.length) →
      o.map (fun r => (⟨[(m'.vec r).length], m'.vec r⟩ : Arr K))
        = o.map fun r => ⟨[(w.mem.vec r).length], w.mem.vec r⟩ := by
    intro o ho
    cases o with
    | none => rfl
    | some r => simp only [Option.map_some]; rw [h.vec (ho r rfl)]
  have hc : ∀ o : Option Ref, (∀ r, o = some r → LiveCurve w.mem r) → o.map m'.curve = o.map w.mem.curve := by
    intro o ho
    cases o with
    | none => rfl
    | some r => simp only [Option.map_some]; rw [h.curve (ho r rfl)]
  have hp : w.self.paramData.map m'.mat = w.self.paramData.map w.mem.mat := by
    cases e : w.self.paramData with
    | none => rfl
    | some r => simp only [Option.map_some]; rw [h.mat (hw.paramData r e)]
  unfold view
  simp only
  rw [hd, hv _ hw.start, hv _ hw.fin, hc _ hw.initCurve, hc _ hw.fitCurve, hp]

theorem keeps_of_unwritten (hw : w.Good) {m' : Mem K} (h : Unwritten w.mem m') :
    w.Keeps { w with mem := m' } := by
  have live : ∀ c, (w.self.initCurve = some c ∨ w.self.fitCurve = some c) → LiveCurve w.mem c := by
    rintro c (e | e)
    · exact hw.initCurve c e
    · exact hw.fitCurve c e
  refine ⟨good_of_unwritten hw h, h, ?_, ?_⟩
  · rintro r hr ⟨c, hc, e⟩
    refine ⟨c, hc, ?_⟩
    rw [← e]
    exact (congrArg CurveObj.kv (h.curveObj (live c hc).obj)).symm
  · rintro r hr (⟨c, hc, e⟩ | e)
    · refine Or.inl ⟨c, hc, ?_⟩
      rw [← e]
      exact (congrArg CurveObj.ctrl (h.curveObj (live c hc).obj)).symm
    · exact Or.inr e

theorem Keeps.refl (hw : w.Good) : w.Keeps w :=
  ⟨hw, (Grown.refl _).unwritten, fun _ _ h => h, fun _ _ h => h⟩

theorem Keeps.trans (h : w.Keeps w') (h' : w'.Keeps w'') : w.Keeps w'' :=
  ⟨h'.good, h.mem.trans h'.mem,
    fun r hr hu => h.vec r hr (h'.vec r (lt_of_lt_of_le hr h.mem.vecs.length_le) hu),
    fun r hr hu => h.mat r hr (h'.mat r (lt_of_lt_of_le hr h.mem.mats.length_le) hu)⟩

/-- The method `x` on the problem in memory does what the method `y` does to what the problem looks like; seen from `v`
everything is kept. -/
def Follows {α β : Type} (v w : ProblemMem K) (x : Meth (ProblemMem K) α) (y : Meth (Boundary K) β)
    (Q : α → ProblemMem K → β → Prop) : Prop :=
  match y w.view with
  | (.ok b, s) => ∃ a w', x w = (.ok a, w') ∧ w'.view = s ∧ v.Keeps w' ∧ Q a w' b
  | (.error e, s) => ∃ w', x w = (.error e, w') ∧ w'.view = s ∧ v.Keeps w'

namespace Follows
variable {α β γ δ : Type} {v : ProblemMem K}

theorem bind {x : Meth (ProblemMem K) α} {y : Meth (Boundary K) β} {Q : α → ProblemMem K → β → Prop}
    {f : α → Meth (ProblemMem K) γ} {g : β → Meth (Boundary K) δ} {Q' : γ → ProblemMem K → δ → Prop}
    (h : Follows v w x y Q) (hf : ∀ a w' b, v.Keeps w' → Q a w' b → Follows v w' (f a) (g b) Q') :
    Follows v w (x >>= f) (y >>= g) Q' := by
  unfold Follows at h
  unfold Follows
  show match Meth.bind y g w.view with
    | (.ok b, s) => ∃ a w', Meth.bind x f w = (.ok a, w') ∧ w'.view = s ∧ v.Keeps w' ∧ Q' a w' b
    | (.error e, s) => ∃ w', Meth.bind x f w = (.error e, w') ∧ w'.view = s ∧ v.Keeps w'
  unfold Meth.bind
  cases hy : y w.view with
  | mk r s =>
    rw [hy] at h
    cases r with
    | ok b =>
      obtain ⟨a, w', h1, rfl, h3, h4⟩ := h
      rw [h1]
      exact hf a w' b h3 h4
    | error e =>
      obtain ⟨w', h1, h2, h3⟩ := h
      rw [h1]
      exact ⟨w', rfl, h2, h3⟩

theorem lift (hw : v.Keeps w) (x : Py α) {f : α → Meth (ProblemMem K) γ} {g : α → Meth (Boundary K) δ}
    {Q' : γ → ProblemMem K → δ → Prop} (hf : ∀ a, x = .ok a → Follows v w (f a) (g a) Q') :
    Follows v w (Meth.lift x >>= f) (Meth.lift x >>= g) Q' := by
  cases x with
  | ok a => exact hf a rfl
  | error e => exact ⟨w, rfl, rfl, hw⟩

theorem read {f : ProblemMem K → Meth (ProblemMem K) γ} {g : Boundary K → Meth (Boundary K) δ}
    {Q' : γ → ProblemMem K → δ → Prop} (h : Follows v w (f w) (g w.view) Q') :
    Follows v w (Meth.read id >>= f) (Meth.read id >>= g) Q' := h

theorem raise (hw : v.Keeps w) (e : Err) {Q : α → ProblemMem K → β → Prop} :
    Follows v w (Meth.raise e) (Meth.raise e) Q := ⟨w, rfl, rfl, hw⟩

theorem assign {f : ProblemRefs → ProblemRefs} {g : Boundary K → Boundary K} {Q : Unit → ProblemMem K → Unit → Prop}
    (hv : view { w with self := f w.self } = g w.view) (hk : v.Keeps { w with self := f w.self })
    (hQ : Q () { w with self := f w.self } ()) :
    Follows v w (assignRefs f) (Meth.assign g) Q :=
  ⟨(), _, rfl, hv, hk, hQ⟩

theorem of_sim (hw : v.Keeps w) {e : Eff K α} {y : Py β} {Q : α → Mem K → β → Prop}
    (h : Sim (Unwritten w.mem) (e w.mem) y Q) (hQ : ∀ a m' b, y = .ok b → Q a m' b → Unwritten w.mem m') :
    Follows v w (onMem e) (Meth.lift y) fun a w' b => w'.self = w.self ∧ Q a w'.mem b := by
  cases y with
  | ok b =>
    obtain ⟨a, m', h1, h2⟩ := h
    have hm := hQ a m' b rfl h2
    refine ⟨a, { w with mem := m' }, ?_, view_of_unwritten hw.good hm, hw.trans (keeps_of_unwritten hw.good hm), rfl, h2⟩
    show ((e w.mem).1, ({ w with mem := (e w.mem).2 } : ProblemMem K)) = _
    rw [h1]
  | error er =>
    obtain ⟨m', h1, hm⟩ := h
    refine ⟨{ w with mem := m' }, ?_, view_of_unwritten hw.good hm, hw.trans (keeps_of_unwritten hw.good hm)⟩
    show ((e w.mem).1, ({ w with mem := (e w.mem).2 } : ProblemMem K)) = _
    rw [h1]

/-- A step that only the method on the memory makes. -/
theorem step {x : Meth (ProblemMem K) α} {f : α → Meth (ProblemMem K) γ} {y : Meth (Boundary K) δ}
    {Q : γ → ProblemMem K → δ → Prop} {a : α} (hx : x w = (.ok a, w')) (hv : w'.view = w.view)
    (h : Follows v w' (f a) y Q) : Follows v w (x >>= f) y Q := by
  have e : (x >>= f) w = f a w' := by
    show Meth.bind x f w = _
    unfold Meth.bind
    rw [hx]
  unfold Follows at h ⊢
  rw [e, ← hv]
  exact h

theorem mono {x : Meth (ProblemMem K) α} {y : Meth (Boundary K) β} {Q Q' : α → ProblemMem K → β → Prop}
    (h : Follows v w x y Q) (hQ : ∀ a w' b, Q a w' b → Q' a w' b) : Follows v w x y Q' := by
  unfold Follows at h ⊢
  cases hy : y w.view with
  | mk r s =>
    rw [hy] at h
    cases r with
    | ok b =>
      obtain ⟨a, w', h1, h2, h3, h4⟩ := h
      exact ⟨a, w', h1, h2, h3, hQ _ _ _ h4⟩
    | error e => exact h

/-- A method of the problem called inside another one. -/
theorem rebase {x : Meth (ProblemMem K) α} {y : Meth (Boundary K) β} {Q : α → ProblemMem K → β → Prop}
    (hw : v.Keeps w) (h : Follows w w x y Q) : Follows v w x y fun a w' b => w.Keeps w' ∧ Q a w' b := by
  unfold Follows at h ⊢
  cases hy : y w.view with
  | mk r s =>
    rw [hy] at h
    cases r with
    | ok b =>
      obtain ⟨a, w', h1, h2, h3, h4⟩ := h
      exact ⟨a, w', h1, h2, hw.trans h3, h3, h4⟩
    | error e =>
      obtain ⟨w', h1, h2, h3⟩ := h
      exact ⟨w', h1, h2, hw.trans h3⟩

end Follows

end ProblemMem

/-! ## Rows of arrays -/

theorem chunks_flatten (c : ℕ) : ∀ (m : ℕ) (l : List K), l.length = m * c →
    ((List.range m).map fun i => (l.drop (i * c)).take c).flatten = l
  | 0, l, h => by simpa using (List.length_eq_zero_iff.1 (by simpa using h)).symm
  | m + 1, l, h => by
    rw [List.range_succ_eq_map, List.map_cons, List.flatten_cons, List.map_map]
    have ih := chunks_flatten c m (l.drop c) (by rw [List.length_drop, h, Nat.succ_mul]; omega)
    have e : (List.range m).map ((fun i => (l.drop (i * c)).take c) ∘ Nat.succ)
        = (List.range m).map fun i => ((l.drop c).drop (i * c)).take c := by
      refine List.map_congr_left fun i _ => ?_
      show (l.drop (i.succ * c)).take c = _
      rw [List.drop_drop, Nat.succ_mul, Nat.add_comm]
    rw [e, ih, Nat.zero_mul, List.drop_zero, List.take_append_drop]

theorem chunks_of_flatten (c : ℕ) : ∀ l : List (List K), (∀ row ∈ l, row.length = c) →
    ((List.range l.length).map fun i => (l.flatten.drop (i * c)).take c) = l
  | [], _ => rfl
  | row :: l, h => by
    have hr : row.length = c := h row (by simp)
    have ih := chunks_of_flatten c l fun r hr => h r (List.mem_cons_of_mem _ hr)
    rw [List.length_cons, List.range_succ_eq_map, List.map_cons, List.map_map, List.flatten_cons]
    congr 1
    · rw [Nat.zero_mul, List.drop_zero, ← hr, List.take_left]
    · refine Eq.trans (List.map_congr_left fun i _ => ?_) ih
      show ((row ++ l.flatten).drop (i.succ * c)).take c = _
      rw [Nat.succ_mul, Nat.add_comm, ← hr, ← List.drop_drop, List.drop_left]

end

section
variable {K : Type} [Field K] [LinearOrder K]

theorem Arr.rows_length {a : Arr K} {n c : ℕ} (hs : a.shape = [n, c]) : a.rows.length = n := by
  unfold Arr.rows
  rw [hs]
  simp

theorem Arr.rows_flatten {a : Arr K} {n c : ℕ} (hs : a.shape = [n, c]) (hd : a.data.length = a.shape.prod) :
    a.rows.flatten = a.data := by
  have h := chunks_flatten c n a.data (by rw [hd, hs]; simp)
  unfold Arr.rows
  rw [hs]
  exact h

theorem Arr.rows_cols {a : Arr K} {n c : ℕ} (hs : a.shape = [n, c]) (hd : a.data.length = a.shape.prod) :
    ∀ row ∈ a.rows, row.length = c := by
  have hd' : a.data.length = n * c := by rw [hd, hs]; simp
  unfold Arr.rows
  rw [hs]
  intro row hr
  obtain ⟨i, hi, rfl⟩ := List.mem_map.1 hr
  have hi := List.mem_range.1 hi
  rw [List.length_take, List.length_drop, hd']
  have : (i + 1) * c ≤ n * c := Nat.mul_le_mul_right c hi
  rw [Nat.succ_mul] at this
  omega

theorem Arr.rows_of_flatten {l : List (List K)} {c : ℕ} (h : ∀ row ∈ l, row.length = c) :
    (⟨[l.length, c], l.flatten⟩ : Arr K).rows = l := chunks_of_flatten c l h

/-! ## Functions on the memory -/

theorem initializeCurveMem_sim (m : Mem K) (s e : List K) (d n : ℕ) :
    Sim (Unwritten m) (initializeCurveMem s e d n m) (initializeCurve s e d n) fun i m' c =>
      Unwritten m m' ∧ LiveCurve m' i ∧ m'.curve i = c ∧ m.mats.length ≤ (m'.curveObj i).ctrl ∧
        m.vecs.length ≤ (m'.curveObj i).kv := by
  unfold initializeCurveMem
  cases hi : initializeCurve s e d n with
  | error e => exact ⟨m, rfl, (Grown.refl m).unwritten⟩
  | ok c =>
    obtain ⟨m1, e1, g1, l1, v1⟩ := mnew_grown m c.ctrlpts
    obtain ⟨m2, e2, g2, l2, v2⟩ := vnew_grown m1 c.kv
    refine Sim.step (a := c) (m' := m) rfl ?_
    refine Sim.step e1 ?_
    refine Sim.step e2 ?_
    obtain ⟨e, hl⟩ := newCurve_live (m := m2) (c := ⟨c.degree, m.mats.length, m1.vecs.length⟩)
      (lt_of_lt_of_le l1 g2.mats_le) l2
    refine ⟨_, _, rfl, (g1.trans g2).unwritten.trans ?_, hl, ?_, ?_, ?_⟩
    · exact ⟨List.prefix_rfl, List.prefix_rfl, List.prefix_append _ _, List.prefix_rfl⟩
    · rw [Mem.curve, e]
      show (⟨c.degree, m2.mat m.mats.length, m2.vec m1.vecs.length⟩ : Curve K) = c
      rw [g2.mat l1, v1, v2]
    · rw [e]
    · rw [e]; exact g1.vecs_le

theorem initCurveOfMem_sim (m : Mem K) (s e : Option Ref) (d n : Option ℤ) :
    Sim (Unwritten m) (initCurveOfMem s e d n m)
      (initCurveOf (s.map fun r => (⟨[(m.vec r).length], m.vec r⟩ : Arr K))
        (e.map fun r => (⟨[(m.vec r).length], m.vec r⟩ : Arr K)) d n) fun i m' c =>
      Unwritten m m' ∧ LiveCurve m' i ∧ m'.curve i = c ∧ m.mats.length ≤ (m'.curveObj i).ctrl ∧
        m.vecs.length ≤ (m'.curveObj i).kv := by
  have k0 : Unwritten m m := (Grown.refl m).unwritten
  unfold initCurveOfMem initCurveOf
  refine Sim.lift k0 fun d' _ => ?_
  refine Sim.lift k0 fun n' _ => ?_
  by_cases h : ¬ n' ≥ d'
  · rw [if_pos h, if_pos h]
    exact ⟨m, rfl, k0⟩
  · rw [if_neg h, if_neg h]
    have lift' : ∀ (o : Option Ref), Sim (Unwritten m) ((pointOfMem o : Eff K _) m)
        (pointOf (o.map fun r => (⟨[(m.vec r).length], m.vec r⟩ : Arr K))) fun a m' b => a = b ∧ m' = m := by
      intro o
      cases o with
      | none => exact ⟨m, rfl, k0⟩
      | some r => exact ⟨_, m, rfl, rfl, rfl⟩
    refine Sim.bind (lift' s) ?_
    rintro a _ _ ⟨rfl, rfl⟩
    refine Sim.bind (lift' e) ?_
    rintro b _ _ ⟨rfl, rfl⟩
    exact initializeCurveMem_sim _ _ _ _ _

theorem parameterizeCurveMem_new (m : Mem K) (env : FitEnv K) (o D : Ref) :
    Sim (Unwritten m) (parameterizeCurveMem env o D m)
      (parameterizeCurve env.num (env.curveLike (m.curve o)) (m.mat D))
      fun r m' x => Unwritten m m' ∧ r < m'.mats.length ∧ m'.mat r = x ∧ m.mats.length ≤ r := by
  unfold parameterizeCurveMem
  refine Sim.step (a := m.curve o) rfl ?_
  refine Sim.step (a := m.mat D) rfl ?_
  cases h : parameterizeCurve env.num (env.curveLike (m.curve o)) (m.mat D) with
  | error e => exact ⟨m, rfl, (Grown.refl m).unwritten⟩
  | ok l =>
    obtain ⟨m1, e1, g1, l1, v1⟩ := mnew_grown m l
    exact ⟨_, m1, e1, g1.unwritten, l1, v1, le_rfl⟩

theorem knotInsertionOfMem_sim (m : Mem K) (env : DataEnv K) {o D : Ref} (ho : LiveCurve m o)
    (hD : D < m.mats.length) (n : Option ℤ) :
    Sim (Unwritten m) (knotInsertionOfMem env o D n m) (knotInsertionOf env (m.curve o) (m.mat D) n) fun t m' c =>
      Unwritten m m' ∧ LiveCurve m' t ∧ m'.curve t = c ∧ m.mats.length ≤ (m'.curveObj t).ctrl ∧
        ((m'.curveObj t).kv = (m.curveObj o).kv ∨ m.vecs.length ≤ (m'.curveObj t).kv) := by
  cases n with
  | some n =>
    refine (fitCurveKnotInsertionMem_sim env.fuel env.fit ho hD n).mono (fun _ h => h) ?_
    rintro t m' c - ⟨h1, -, h2, h3, h4, h5⟩
    exact ⟨h1, h2, h3, h4, h5.imp And.left And.left⟩
  | none =>
    unfold knotInsertionOfMem knotInsertionOf
    refine Sim.step (a := m.curveObj o) rfl ?_
    refine Sim.step (a := m.curves.length) rfl ?_
    obtain ⟨e, hl⟩ := newCurve_live (c := m.curveObj o) ho.ctrl ho.kv
    set m1 : Mem K := { m with curves := m.curves ++ [m.curveObj o] } with hm1
    have k1 : Unwritten m m1 := ⟨List.prefix_rfl, List.prefix_rfl, List.prefix_append _ _, List.prefix_rfl⟩
    have ev : m1.curve m.curves.length = m.curve o := by
      rw [Mem.curve, e]; rfl
    have hp := parameterizeCurveMem_sim (m := m1) env.fit m.curves.length D
    rw [ev] at hp
    refine Sim.bind (hp.mono (fun _ h => k1.trans h.unwritten) fun _ _ _ _ h => h) ?_
    rintro pr m2 pd ⟨g2, l2, v2⟩
    have hs := singleFitCurveMem_sim (m := m2) env.fit.lstsq (g2.live hl) l2
    rw [g2.curve hl, ev, v2] at hs
    refine Sim.bind (hs.mono (fun _ h => (k1.trans g2.unwritten).trans h.unwritten) fun _ _ _ _ h => h) ?_
    rintro - m3 c3 ⟨a3, -, -⟩
    exact ⟨m3, rfl, Unwritten.of_newCurve ((OwnCurve.of_grown hl.obj g2).trans a3.own)⟩

theorem finalFitMem_sim (env : DataEnv K) {w : ProblemMem K} (hw : w.Good) :
    Sim (Unwritten w.mem) (finalFitMem env w.self w.mem) (finalFit env w.view) fun t m' c =>
      Unwritten w.mem m' ∧ LiveCurve m' t ∧ m'.curve t = c ∧ w.mem.mats.length ≤ (m'.curveObj t).ctrl ∧
        (w.ComputedVec (m'.curveObj t).kv ∨ w.mem.vecs.length ≤ (m'.curveObj t).kv) ∧
        ∃ i, w.self.initCurve = some i ∧
          (w.self.fitMethod ≠ "adaptive" → (m'.curveObj t).kv = (w.mem.curveObj i).kv) := by
  have k0 : Unwritten w.mem w.mem := (Grown.refl w.mem).unwritten
  unfold finalFitMem finalFit
  have hc : Sim (Unwritten w.mem) (liftPy (curveRef w.self.initCurve) w.mem) (curveOf w.view.initCurve)
      fun i m' c => m' = w.mem ∧ w.self.initCurve = some i ∧ c = w.mem.curve i := by
    show Sim _ _ (curveOf (w.self.initCurve.map w.mem.curve)) _
    cases e : w.self.initCurve with
    | none => exact ⟨w.mem, rfl, k0⟩
    | some i => exact ⟨i, w.mem, rfl, rfl, rfl, rfl⟩
  refine Sim.bind hc ?_
  rintro i _ c ⟨rfl, hi, rfl⟩
  have hd : Sim (Unwritten w.mem) (liftPy (dataRef w.self.data) w.mem) (rowsOf w.view.data)
      fun r m' rows => m' = w.mem ∧ r < w.mem.mats.length ∧ rows = w.mem.mat r := by
    show Sim _ _ (rowsOf (w.self.data.map _)) _
    cases e : w.self.data with
    | none => exact ⟨w.mem, rfl, k0⟩
    | some d =>
      obtain ⟨h1, h2⟩ := hw.data d.1 d.2 e
      exact ⟨d.1, w.mem, rfl, rfl, h1, Arr.rows_of_flatten h2⟩
  refine Sim.bind hd ?_
  rintro r _ rows ⟨rfl, hr, rfl⟩
  have hl := hw.initCurve i hi
  by_cases hf : w.self.fitMethod = "adaptive"
  · have hf' : w.view.fitMethod = "adaptive" := hf
    rw [if_pos hf, if_pos hf']
    refine (knotInsertionOfMem_sim w.mem env hl hr w.self.numCtrl).mono (fun _ h => h) ?_
    rintro t m' c - ⟨h1, h2, h3, h4, h5⟩
    exact ⟨h1, h2, h3, h4, h5.imp (fun h => ⟨i, Or.inl hi, h.symm⟩) id, i, hi, fun h => absurd hf h⟩
  · have hf' : ¬ w.view.fitMethod = "adaptive" := hf
    rw [if_neg hf, if_neg hf']
    refine (fitCurveFixedMem_sim env.fuel env.fit hl hr).mono (fun _ h => h) ?_
    rintro t m' c - ⟨h1, -, h2, h3, h4, h5⟩
    exact ⟨h1, h2, h3, h4, Or.inl ⟨i, Or.inl hi, h5.symm⟩, i, hi, fun _ => h5⟩

/-! ## The methods -/

namespace ProblemMem
variable {w w' : ProblemMem K}

/-- Attributes other than the computed ones. -/
theorem keeps_self (s : ProblemRefs) (hg : Good { w with self := s }) (hi : s.initCurve = w.self.initCurve)
    (hf : s.fitCurve = w.self.fitCurve) (hp : s.paramData = w.self.paramData) : w.Keeps { w with self := s } := by
  refine ⟨hg, (Grown.refl _).unwritten, ?_, ?_⟩
  · rintro r - ⟨c, hc, e⟩
    refine ⟨c, ?_, e⟩
    rw [← hi, ← hf]
    exact hc
  · rintro r - (⟨c, hc, e⟩ | e)
    · refine Or.inl ⟨c, ?_, e⟩
      rw [← hi, ← hf]
      exact hc
    · refine Or.inr ?_
      rw [← hp]
      exact e

theorem storeMat_spec {v : Arg K} (hv : v.Ok w.mem) {a : Arr K} (ha : (v.value w.mem).toArray = .ok a)
    {n c : ℕ} (hs : a.shape = [n, c]) :
    ∃ r w', storeMat v a w = (.ok r, w') ∧ w'.self = w.self ∧ Unwritten w.mem w'.mem ∧ r < w'.mem.mats.length ∧
      (∀ row ∈ w'.mem.mat r, row.length = c) ∧
      (⟨[(w'.mem.mat r).length, c], (w'.mem.mat r).flatten⟩ : Arr K) = a := by
  have new : a.data.length = a.shape.prod → ∃ r w', (onMem (mnew a.rows) : Meth (ProblemMem K) Ref) w = (.ok r, w') ∧
      w'.self = w.self ∧ Unwritten w.mem w'.mem ∧ r < w'.mem.mats.length ∧
      (∀ row ∈ w'.mem.mat r, row.length = c) ∧
      (⟨[(w'.mem.mat r).length, c], (w'.mem.mat r).flatten⟩ : Arr K) = a := by
    intro hd
    obtain ⟨m1, e1, g1, l1, v1⟩ := mnew_grown w.mem a.rows
    refine ⟨w.mem.mats.length, { w with mem := m1 }, ?_, rfl, g1.unwritten, l1, ?_, ?_⟩
    · show (((mnew a.rows : Eff K Ref) w.mem).1, ({ w with mem := ((mnew a.rows : Eff K Ref) w.mem).2 } : ProblemMem K)) = _
      rw [e1]
    · show ∀ row ∈ m1.mat _, _
      rw [v1]
      exact Arr.rows_cols hs hd
    · show (⟨[(m1.mat _).length, c], (m1.mat _).flatten⟩ : Arr K) = a
      rw [v1, Arr.rows_flatten hs hd, Arr.rows_length hs, ← hs]
  cases v with
  | mat r c' =>
    cases ha
    cases hs
    exact ⟨r, w, rfl, rfl, (Grown.refl _).unwritten, hv.1, hv.2, rfl⟩
  | vec r =>
    cases ha
    cases hs
  | val v =>
    refine new ?_
    cases v with
    | arr b => exact hv a (Or.inl (by rw [Except.ok.inj ha]))
    | seq r => exact hv a (Or.inr (congrArg Val.seq ha))
    | _ => cases ha; cases hs

theorem storeVec_spec {v : Arg K} (hv : v.Ok w.mem) {a : Arr K} (ha : (v.value w.mem).toArray = .ok a)
    {n : ℕ} (hs : a.shape = [n]) :
    ∃ r w', storeVec v a w = (.ok r, w') ∧ w'.self = w.self ∧ Unwritten w.mem w'.mem ∧ r < w'.mem.vecs.length ∧
      (⟨[(w'.mem.vec r).length], w'.mem.vec r⟩ : Arr K) = a := by
  have new : a.data.length = a.shape.prod → ∃ r w', (onMem (vnew a.data) : Meth (ProblemMem K) Ref) w = (.ok r, w') ∧
      w'.self = w.self ∧ Unwritten w.mem w'.mem ∧ r < w'.mem.vecs.length ∧
      (⟨[(w'.mem.vec r).length], w'.mem.vec r⟩ : Arr K) = a := by
    intro hd
    obtain ⟨m1, e1, g1, l1, v1⟩ := vnew_grown w.mem a.data
    refine ⟨w.mem.vecs.length, { w with mem := m1 }, ?_, rfl, g1.unwritten, l1, ?_⟩
    · show (((vnew a.data : Eff K Ref) w.mem).1, ({ w with mem := ((vnew a.data : Eff K Ref) w.mem).2 } : ProblemMem K)) = _
      rw [e1]
    · show (⟨[(m1.vec _).length], m1.vec _⟩ : Arr K) = a
      rw [v1, hd, hs]
      obtain ⟨sh, dt⟩ := a
      cases hs
      simp
  cases v with
  | vec r =>
    cases ha
    exact ⟨r, w, rfl, rfl, (Grown.refl _).unwritten, hv, rfl⟩
  | mat r c' =>
    cases ha
    cases hs
  | val v =>
    refine new ?_
    cases v with
    | arr b => exact hv a (Or.inl (by rw [Except.ok.inj ha]))
    | seq r => exact hv a (Or.inr (congrArg Val.seq ha))
    | _ => cases ha; cases hs

theorem setDataMem_follows (hw : w.Good) {v : Arg K} (hv : v.Ok w.mem) :
    Follows w w (setDataMem v) (Boundary.setData (v.value w.mem)) fun _ _ _ => True := by
  unfold setDataMem Boundary.setData
  refine Follows.lift (Keeps.refl hw) _ fun a ha => ?_
  by_cases h2 : a.shape.length ≠ 2
  · rw [if_pos h2, if_pos h2]; exact Follows.raise (Keeps.refl hw) _
  rw [if_neg h2, if_neg h2]
  refine Follows.lift (Keeps.refl hw) _ fun last hl => ?_
  by_cases h3 : ¬ (last = 2 ∨ last = 3)
  · rw [if_pos h3, if_pos h3]; exact Follows.raise (Keeps.refl hw) _
  rw [if_neg h3, if_neg h3]
  have hs : ∃ n, a.shape = [n, last] := by
    obtain ⟨sh, d⟩ := a
    match sh, h2 with
    | [n, c], _ => cases hl; exact ⟨n, rfl⟩
    | [], h2 => simp at h2
    | [_], h2 => simp at h2
    | _ :: _ :: _ :: _, h2 => simp at h2
  obtain ⟨n, hs⟩ := hs
  obtain ⟨r, w1, e1, s1, k1, l1, c1, v1⟩ := storeMat_spec hv ha hs
  have ew : w1 = { w with mem := w1.mem } := by rw [← s1]
  have hg1 : w1.Good := by rw [ew]; exact good_of_unwritten hw k1
  have hk1 : w.Keeps w1 := by rw [ew]; exact keeps_of_unwritten hw k1
  refine Follows.step e1 (by rw [ew]; exact view_of_unwritten hw k1) ?_
  refine Follows.assign ?_ (hk1.trans (keeps_self _ ?_ rfl rfl rfl)) trivial
  · show ({ w1.view with data := some _ } : Boundary K) = { w1.view with data := some a }
    rw [← v1]
  · refine ⟨fun r' c' e => ?_, hg1.start, hg1.fin, hg1.initCurve, hg1.paramData, hg1.fitCurve⟩
    cases e
    exact ⟨l1, c1⟩

theorem shape_one {a : Arr K} (h1 : ¬ a.shape.length ≠ 1) : ∃ n, a.shape = [n] := by
  obtain ⟨sh, d⟩ := a
  match sh, h1 with
  | [n], _ => exact ⟨n, rfl⟩
  | [], h1 => simp at h1
  | _ :: _ :: _, h1 => simp at h1

theorem setStartMem_follows (hw : w.Good) {v : Arg K} (hv : v.Ok w.mem) :
    Follows w w (setStartMem v) (Boundary.setStart (v.value w.mem)) fun _ _ _ => True := by
  unfold setStartMem Boundary.setStart
  refine Follows.lift (Keeps.refl hw) _ fun a ha => ?_
  by_cases h2 : a.shape.length ≠ 1
  · rw [if_pos h2, if_pos h2]; exact Follows.raise (Keeps.refl hw) _
  rw [if_neg h2, if_neg h2]
  refine Follows.lift (Keeps.refl hw) _ fun last hl => ?_
  by_cases h3 : ¬ (last = 2 ∨ last = 3)
  · rw [if_pos h3, if_pos h3]; exact Follows.raise (Keeps.refl hw) _
  rw [if_neg h3, if_neg h3]
  obtain ⟨n, hs⟩ := shape_one h2
  obtain ⟨r, w1, e1, s1, k1, l1, v1⟩ := storeVec_spec hv ha hs
  have ew : w1 = { w with mem := w1.mem } := by rw [← s1]
  have hg1 : w1.Good := by rw [ew]; exact good_of_unwritten hw k1
  have hk1 : w.Keeps w1 := by rw [ew]; exact keeps_of_unwritten hw k1
  refine Follows.step e1 (by rw [ew]; exact view_of_unwritten hw k1) ?_
  refine Follows.assign ?_ (hk1.trans (keeps_self _ ?_ rfl rfl rfl)) trivial
  · show ({ w1.view with start := some _ } : Boundary K) = { w1.view with start := some a }
    rw [← v1]
  · refine ⟨hg1.data, fun r' e => ?_, hg1.fin, hg1.initCurve, hg1.paramData, hg1.fitCurve⟩
    cases e
    exact l1

theorem setEndMem_follows (hw : w.Good) {v : Arg K} (hv : v.Ok w.mem) :
    Follows w w (setEndMem v) (Boundary.setEnd (v.value w.mem)) fun _ _ _ => True := by
  unfold setEndMem Boundary.setEnd
  refine Follows.lift (Keeps.refl hw) _ fun a ha => ?_
  by_cases h2 : a.shape.length ≠ 1
  · rw [if_pos h2, if_pos h2]; exact Follows.raise (Keeps.refl hw) _
  rw [if_neg h2, if_neg h2]
  refine Follows.lift (Keeps.refl hw) _ fun last hl => ?_
  by_cases h3 : ¬ (last = 2 ∨ last = 3)
  · rw [if_pos h3, if_pos h3]; exact Follows.raise (Keeps.refl hw) _
  rw [if_neg h3, if_neg h3]
  obtain ⟨n, hs⟩ := shape_one h2
  obtain ⟨r, w1, e1, s1, k1, l1, v1⟩ := storeVec_spec hv ha hs
  have ew : w1 = { w with mem := w1.mem } := by rw [← s1]
  have hg1 : w1.Good := by rw [ew]; exact good_of_unwritten hw k1
  have hk1 : w.Keeps w1 := by rw [ew]; exact keeps_of_unwritten hw k1
  refine Follows.step e1 (by rw [ew]; exact view_of_unwritten hw k1) ?_
  refine Follows.assign ?_ (hk1.trans (keeps_self _ ?_ rfl rfl rfl)) trivial
  · show ({ w1.view with fin := some _ } : Boundary K) = { w1.view with fin := some a }
    rw [← v1]
  · refine ⟨hg1.data, hg1.start, fun r' e => ?_, hg1.initCurve, hg1.paramData, hg1.fitCurve⟩
    cases e
    exact l1

theorem setInitCurveMem_follows (hw : w.Good) :
    Follows w w setInitCurveMem Boundary.setInitCurve fun _ w' _ => w'.self.fitMethod = w.self.fitMethod := by
  unfold setInitCurveMem Boundary.setInitCurve
  refine Follows.read ?_
  have h : Sim (Unwritten w.mem) ((if w.self.fitMethod = "adaptive" then
        initCurveOfMem w.self.start w.self.fin w.self.degree (w.self.degree.map (· + 1))
      else initCurveOfMem w.self.start w.self.fin w.self.degree w.self.numCtrl : Eff K Ref) w.mem)
      (if w.view.fitMethod = "adaptive" then
        initCurveOf w.view.start w.view.fin w.view.degree (w.view.degree.map (· + 1))
      else initCurveOf w.view.start w.view.fin w.view.degree w.view.numCtrl) fun i m' c =>
      Unwritten w.mem m' ∧ LiveCurve m' i ∧ m'.curve i = c ∧ w.mem.mats.length ≤ (m'.curveObj i).ctrl ∧
        w.mem.vecs.length ≤ (m'.curveObj i).kv := by
    by_cases hf : w.self.fitMethod = "adaptive"
    · have hf' : w.view.fitMethod = "adaptive" := hf
      rw [if_pos hf, if_pos hf']
      exact initCurveOfMem_sim _ _ _ _ _
    · have hf' : ¬ w.view.fitMethod = "adaptive" := hf
      rw [if_neg hf, if_neg hf']
      exact initCurveOfMem_sim _ _ _ _ _
  refine Follows.bind (Follows.of_sim (Keeps.refl hw) h fun _ _ _ _ h => h.1) ?_
  rintro i w1 c k1 ⟨s1, u1, l1, rfl, hm, hk⟩
  have hg1 := k1.good
  refine ⟨(), _, rfl, rfl, ⟨⟨hg1.data, hg1.start, hg1.fin, fun c' e => ?_, hg1.paramData, hg1.fitCurve⟩,
    u1, ?_, ?_⟩, (congrArg ProblemRefs.fitMethod s1 : w1.self.fitMethod = _)⟩
  · cases e; exact l1
  · rintro r hr ⟨c, hc | hc, e⟩
    · cases hc
      exact absurd e (ne_of_gt (lt_of_lt_of_le hr hk))
    · exact k1.vec r hr ⟨c, Or.inr hc, e⟩
  · rintro r hr (⟨c, hc | hc, e⟩ | e)
    · cases hc
      exact absurd e (ne_of_gt (lt_of_lt_of_le hr hm))
    · exact k1.mat r hr (Or.inl ⟨c, Or.inr hc, e⟩)
    · exact k1.mat r hr (Or.inr e)

theorem rowsOf_data (hw : w.Good) : (dataRef w.self.data = .error .typeError ∧ rowsOf w.view.data = .error .typeError) ∨
    ∃ r, dataRef w.self.data = .ok r ∧ r < w.mem.mats.length ∧ rowsOf w.view.data = .ok (w.mem.mat r) := by
  show (_ ∧ rowsOf (w.self.data.map _) = _) ∨ ∃ r, _ ∧ _ ∧ rowsOf (w.self.data.map _) = _
  cases e : w.self.data with
  | none => exact Or.inl ⟨rfl, rfl⟩
  | some d =>
    obtain ⟨h1, h2⟩ := hw.data d.1 d.2 e
    exact Or.inr ⟨d.1, rfl, h1, congrArg Except.ok (Arr.rows_of_flatten h2)⟩

theorem curveRef_follows (v : ProblemMem K) (hw : v.Keeps w) (o : Option Ref) (ho : ∀ c, o = some c → LiveCurve w.mem c) :
    Follows v w (Meth.lift (curveRef o)) (Meth.lift (curveOf (o.map w.mem.curve))) fun c w' b =>
      (LiveCurve w'.mem c ∧ w'.mem.curve c = b) ∧ w'.self = w.self := by
  cases o with
  | none => exact ⟨w, rfl, rfl, hw⟩
  | some c => exact ⟨c, w, rfl, rfl, hw, ⟨ho c rfl, rfl⟩, rfl⟩

theorem map_eq_none {α β : Type} (o : Option α) (f : α → β) : o.map f = none ↔ o = none := by
  cases o <;> simp

theorem parameterizeMem_follows (env : DataEnv K) (hw : w.Good) :
    Follows w w (parameterizeMem env) (Boundary.parameterize env) fun _ w' _ =>
      w.self.fitCurve ≠ none → w'.self.initCurve = w.self.initCurve ∧ w'.self.fitCurve = w.self.fitCurve := by
  unfold parameterizeMem Boundary.parameterize
  refine Follows.read ?_
  have hi : w.view.initCurve = none ↔ w.self.initCurve = none := map_eq_none _ _
  have hf : w.view.fitCurve = none ↔ w.self.fitCurve = none := map_eq_none _ _
  have k0 := Keeps.refl hw
  have h : Follows w w (if w.self.initCurve = none ∧ w.self.fitCurve = none then do
        setInitCurveMem
        let w ← Meth.read id
        Meth.lift (curveRef w.self.initCurve)
      else if w.self.fitCurve = none then Meth.lift (curveRef w.self.initCurve)
      else Meth.lift (curveRef w.self.fitCurve))
      (if w.view.initCurve = none ∧ w.view.fitCurve = none then do
        Boundary.setInitCurve
        let s ← Meth.read id
        Meth.lift (curveOf s.initCurve)
      else if w.view.fitCurve = none then Meth.lift (curveOf w.view.initCurve)
      else Meth.lift (curveOf w.view.fitCurve)) fun c w' b => (LiveCurve w'.mem c ∧ w'.mem.curve c = b) ∧
        (w.self.fitCurve ≠ none → w'.self = w.self) := by
    by_cases h1 : w.self.initCurve = none ∧ w.self.fitCurve = none
    · rw [if_pos h1, if_pos (by rw [hi, hf]; exact h1)]
      refine Follows.bind (setInitCurveMem_follows hw) ?_
      rintro - w1 - k1 -
      exact (curveRef_follows w k1 _ k1.good.initCurve).mono fun _ _ _ h => ⟨h.1, fun h' => absurd h1.2 h'⟩
    · have h1' : ¬ (w.view.initCurve = none ∧ w.view.fitCurve = none) := by rw [hi, hf]; exact h1
      rw [if_neg h1, if_neg h1']
      by_cases h2 : w.self.fitCurve = none
      · rw [if_pos h2, if_pos (hf.2 h2)]
        exact (curveRef_follows w k0 _ hw.initCurve).mono fun _ _ _ h => ⟨h.1, fun h' => absurd h2 h'⟩
      · rw [if_neg h2, if_neg (fun e => h2 (hf.1 e))]
        exact (curveRef_follows w k0 _ hw.fitCurve).mono fun _ _ _ h => ⟨h.1, fun _ => h.2⟩
  refine Follows.bind h ?_
  rintro c w1 b k1 ⟨⟨lc, rfl⟩, hs1⟩
  refine Follows.read ?_
  rcases rowsOf_data k1.good with ⟨e1, e2⟩ | ⟨r, e1, hr, e2⟩
  · rw [e1, e2]
    exact ⟨w1, rfl, rfl, k1⟩
  rw [e1, e2]
  show Follows w w1 (onMem (parameterizeCurveMem env.fit c r) >>= fun pd => assignRefs fun s => { s with paramData := some pd })
    (Meth.lift (parameterizeCurve env.fit.num (env.fit.curveLike (w1.mem.curve c)) (w1.mem.mat r)) >>=
      fun pd => Meth.assign fun s => { s with paramData := some pd }) _
  refine Follows.bind (Follows.of_sim k1 (parameterizeCurveMem_new w1.mem env.fit c r) fun _ _ _ _ h => h.1) ?_
  rintro pd w2 x k2 ⟨s2, u2, l2, rfl, n2⟩
  have hg2 := k2.good
  refine Follows.assign rfl ⟨⟨hg2.data, hg2.start, hg2.fin, hg2.initCurve, fun c' e => ?_, hg2.fitCurve⟩, k2.mem, k2.vec, ?_⟩
    fun h => ?_
  · cases e; exact l2
  · rintro r' hr' (h | e)
    · exact k2.mat r' hr' (Or.inl h)
    · cases e
      exact absurd (lt_of_lt_of_le hr' (k1.mem.mats.length_le.trans n2)) (lt_irrefl _)
  · show w2.self.initCurve = _ ∧ w2.self.fitCurve = _
    rw [s2, hs1 h]
    exact ⟨rfl, rfl⟩

variable [FloorRing K]

theorem setDegreeMem_follows (env : DataEnv K) (hw : w.Good) (v : Val K) :
    Follows w w (setDegreeMem env v) (Boundary.setDegree env v) fun _ _ _ => True := by
  unfold setDegreeMem Boundary.setDegree
  refine Follows.lift (Keeps.refl hw) _ fun b _ => ?_
  cases b with
  | true => exact Follows.raise (Keeps.refl hw) _
  | false =>
    refine Follows.lift (Keeps.refl hw) _ fun z _ => ?_
    exact Follows.assign rfl (keeps_self _ ⟨hw.data, hw.start, hw.fin, hw.initCurve, hw.paramData, hw.fitCurve⟩ rfl rfl rfl)
      trivial

theorem setNumCtrlMem_follows (env : DataEnv K) (hw : w.Good) (v : Val K) :
    Follows w w (setNumCtrlMem env v) (Boundary.setNumCtrl env v) fun _ w' _ =>
      w'.self.initCurve = w.self.initCurve ∧ w'.self.fitCurve = w.self.fitCurve := by
  unfold setNumCtrlMem Boundary.setNumCtrl
  refine Follows.lift (Keeps.refl hw) _ fun z _ => ?_
  by_cases h : z ≤ 3
  · rw [if_pos h, if_pos h]; exact Follows.raise (Keeps.refl hw) _
  · rw [if_neg h, if_neg h]
    exact Follows.assign rfl (keeps_self _ ⟨hw.data, hw.start, hw.fin, hw.initCurve, hw.paramData, hw.fitCurve⟩ rfl rfl rfl)
      ⟨rfl, rfl⟩

theorem setFitMethodMem_follows (hw : w.Good) (v : Val K) :
    Follows w w (setFitMethodMem v) (Boundary.setFitMethod v) fun _ _ _ => True := by
  unfold setFitMethodMem Boundary.setFitMethod
  cases v with
  | str m =>
    show Follows w w (if _ then _ else _) (if _ then _ else _) _
    by_cases h : ¬ (m = "fixed" ∨ m = "adaptive")
    · rw [if_pos h, if_pos h]; exact Follows.raise (Keeps.refl hw) _
    · rw [if_neg h, if_neg h]
      exact Follows.assign rfl
        (keeps_self _ ⟨hw.data, hw.start, hw.fin, hw.initCurve, hw.paramData, hw.fitCurve⟩ rfl rfl rfl) trivial
  | _ => exact Follows.raise (Keeps.refl hw) _

theorem fitMem_follows (env : DataEnv K) (hw : w.Good) :
    Follows w w (fitMem env) (Boundary.fit env) fun _ w' _ => ∃ i t, w'.self.initCurve = some i ∧
      w'.self.fitCurve = some t ∧ (w'.mem.curveObj t).ctrl ≠ (w'.mem.curveObj i).ctrl ∧
      (w.self.fitMethod ≠ "adaptive" → (w'.mem.curveObj t).kv = (w'.mem.curveObj i).kv) := by
  unfold fitMem Boundary.fit
  refine Follows.read ?_
  have hi : w.view.initCurve = none ↔ w.self.initCurve = none := map_eq_none _ _
  have h : Follows w w (if w.self.initCurve = none then setInitCurveMem else Meth.pure ())
      (if w.view.initCurve = none then Boundary.setInitCurve else Meth.pure ()) fun _ w' _ => w'.self.fitMethod = w.self.fitMethod := by
    by_cases h1 : w.self.initCurve = none
    · rw [if_pos h1, if_pos (hi.2 h1)]
      exact setInitCurveMem_follows hw
    · rw [if_neg h1, if_neg (fun e => h1 (hi.1 e))]
      exact ⟨(), w, rfl, rfl, Keeps.refl hw, rfl⟩
  refine Follows.bind h ?_
  rintro - w1 - k1 hm1
  refine Follows.read ?_
  refine Follows.bind (Follows.of_sim k1 (finalFitMem_sim env k1.good) fun _ _ _ _ h => h.1) ?_
  rintro t w2 c k2 ⟨s2, u2, l2, rfl, n2, n2', i, hi1, hkv⟩
  have hd : w1.view.degree = w1.self.degree := rfl
  rw [hd]
  refine Follows.lift k2 _ fun d _ => ?_
  refine Follows.step (a := (w2.mem.curve t).kv) (w' := w2) rfl rfl ?_
  have hg2 := k2.good
  refine Follows.bind (Follows.assign (Q := fun _ w3 _ => w3 = { w2 with self := { w2.self with fitCurve := some t } }) rfl ⟨⟨hg2.data, hg2.start, hg2.fin, hg2.initCurve, hg2.paramData, fun c' e => ?_⟩,
    k2.mem, ?_, ?_⟩ rfl) ?_
  · cases e; exact l2
  · rintro r hr ⟨c, hc | hc, e⟩
    · exact k2.vec r hr ⟨c, Or.inl hc, e⟩
    · cases hc
      rcases n2' with n2' | n2'
      · rw [show (w2.mem.curveObj t).kv = r from e] at n2'
        exact k1.vec r hr n2'
      · exact absurd e (ne_of_gt (lt_of_lt_of_le hr (k1.mem.vecs.length_le.trans n2')))
  · rintro r hr (⟨c, hc | hc, e⟩ | e)
    · exact k2.mat r hr (Or.inl ⟨c, Or.inl hc, e⟩)
    · cases hc
      exact absurd e (ne_of_gt (lt_of_lt_of_le hr (k1.mem.mats.length_le.trans n2)))
    · exact k2.mat r hr (Or.inr e)
  rintro - w3 - k3 h3
  have hlive := k1.good.initCurve i hi1
  refine Follows.bind (Follows.rebase k3 (setNumCtrlMem_follows env k3.good _)) ?_
  rintro - w4 - k4 ⟨k34, i4, f4⟩
  refine (Follows.rebase k4 (parameterizeMem_follows env k4.good)).mono ?_
  rintro - w5 - ⟨k45, h5⟩
  have f3 : w3.self.fitCurve = some t := by rw [h3]
  have i3 : w3.self.initCurve = some i := by
    rw [h3]
    show w2.self.initCurve = _
    rw [s2, hi1]
  have m3 : w3.mem = w2.mem := by rw [h3]
  obtain ⟨i5, f5⟩ := h5 (by rw [f4, f3]; simp)
  have u25 : Unwritten w2.mem w5.mem := by
    rw [← m3]
    exact k34.mem.trans k45.mem
  refine ⟨i, t, by rw [i5, i4, i3], by rw [f5, f4, f3], ?_, fun hf => ?_⟩
  · rw [u25.curveObj l2.obj, (u2.trans u25).curveObj hlive.obj]
    exact ne_of_gt (lt_of_lt_of_le hlive.ctrl n2)
  · rw [u25.curveObj l2.obj, (u2.trans u25).curveObj hlive.obj]
    exact hkv (by rw [hm1]; exact hf)

end ProblemMem

end

end PySpline
