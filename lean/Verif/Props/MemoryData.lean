import Verif.Lemmas.MemoryData
import Verif.Props.Memory
import Verif.Props.Data

/-!
# C188: which arrays a `BoundaryProblem` shares with its caller

The value model of `BoundaryProblem` copies arrays.  Here the attributes are places in memory
(`Verif/Model/MemoryData.lean`): arrays passed to the setters are stored, not copied.
-/

set_option linter.unusedSectionVars false

namespace PySpline

section
variable {K : Type} [Field K] [LinearOrder K] [FloorRing K]

theorem ProblemMem.Follows.run {w : ProblemMem K} {x : Meth (ProblemMem K) Unit} {y : Meth (Boundary K) Unit}
    {Q : Unit → ProblemMem K → Unit → Prop} (h : ProblemMem.Follows w w x y Q) (fs : FS) :
    BWorld.obj y ⟨w.view, fs⟩ = ((x w).1, ⟨(x w).2.view, fs⟩) ∧ w.Keeps (x w).2 := by
  show ((y w.view).1, (⟨(y w.view).2, fs⟩ : BWorld K)) = _ ∧ _
  unfold ProblemMem.Follows at h
  cases hy : y w.view with
  | mk r s =>
    rw [hy] at h
    cases r with
    | ok b =>
      obtain ⟨a, w', h1, h2, h3, -⟩ := h
      rw [h1]
      exact ⟨by rw [← h2], h3⟩
    | error e =>
      obtain ⟨w', h1, h2, h3⟩ := h
      rw [h1]
      exact ⟨by rw [← h2], h3⟩

/-- Every call on a problem in memory does to what the getters show exactly what the value model says for the contents
that its argument has at that moment, and raises the same exceptions.  It writes into no array and no curve that was
there before, and no array that was there before becomes part of what is computed. -/
theorem boundary_memory (env : DataEnv K) (op : ProblemOp K) {w : ProblemMem K} (hw : w.Good) (hop : op.Ok w.mem)
    (fs : FS) :
    (op.value w.mem).run env ⟨w.view, fs⟩ = ((op.run env w).1, ⟨(op.run env w).2.view, fs⟩) ∧
      w.Keeps (op.run env w).2 := by
  cases op with
  | degree v => exact (ProblemMem.setDegreeMem_follows env hw v).run fs
  | data v => exact (ProblemMem.setDataMem_follows hw hop).run fs
  | start v => exact (ProblemMem.setStartMem_follows hw hop).run fs
  | fin v => exact (ProblemMem.setEndMem_follows hw hop).run fs
  | numCtrl v => exact (ProblemMem.setNumCtrlMem_follows env hw v).run fs
  | fitMethod v => exact (ProblemMem.setFitMethodMem_follows hw v).run fs
  | setInitCurve => exact (ProblemMem.setInitCurveMem_follows hw).run fs
  | parameterize => exact (ProblemMem.parameterizeMem_follows env hw).run fs
  | fit => exact (ProblemMem.fitMem_follows env hw).run fs

theorem Arg.ok_of_unwritten {m m' : Mem K} (h : Unwritten m m') {v : Arg K} (hv : v.Ok m) :
    v.Ok m' ∧ v.value m' = v.value m := by
  cases v with
  | vec r =>
    refine ⟨lt_of_lt_of_le hv h.vecs.length_le, ?_⟩
    simp only [Arg.value]
    rw [h.vec hv]
  | mat r c =>
    refine ⟨⟨lt_of_lt_of_le hv.1 h.mats.length_le, ?_⟩, ?_⟩
    · rw [h.mat hv.1]; exact hv.2
    · simp only [Arg.value]
      rw [h.mat hv.1]
  | val v => exact ⟨hv, rfl⟩

theorem ProblemOp.ok_of_unwritten {m m' : Mem K} (h : Unwritten m m') {op : ProblemOp K} (hop : op.Ok m) :
    op.Ok m' ∧ op.value m' = op.value m := by
  cases op with
  | data v => exact ⟨(Arg.ok_of_unwritten h hop).1, congrArg BOp.data (Arg.ok_of_unwritten h hop).2⟩
  | start v => exact ⟨(Arg.ok_of_unwritten h hop).1, congrArg BOp.start (Arg.ok_of_unwritten h hop).2⟩
  | fin v => exact ⟨(Arg.ok_of_unwritten h hop).1, congrArg BOp.fin (Arg.ok_of_unwritten h hop).2⟩
  | _ => exact ⟨trivial, rfl⟩

/-- Any sequence of calls, whether they return or raise, with arrays that the caller had at the beginning: the problem
looks as in the value model, and every array of the caller has its contents. -/
theorem boundary_session_memory (env : DataEnv K) (fs : FS) : ∀ (ops : List (ProblemOp K)) {w : ProblemMem K},
    w.Good → (∀ op ∈ ops, op.Ok w.mem) →
    (Boundary.history env ⟨w.view, fs⟩ (ops.map fun op => (op.value w.mem, fs))).self = (w.history env ops).view ∧
      w.Keeps (w.history env ops)
  | [], w, hw, _ => ⟨rfl, ProblemMem.Keeps.refl hw⟩
  | op :: ops, w, hw, hops => by
    obtain ⟨h1, k1⟩ := boundary_memory env op hw (hops op (by simp)) fs
    have hok := fun op' (h : op' ∈ ops) =>
      ProblemOp.ok_of_unwritten k1.mem (hops op' (List.mem_cons_of_mem _ h))
    obtain ⟨h2, k2⟩ := boundary_session_memory env fs ops k1.good fun op' h => (hok op' h).1
    refine ⟨?_, k1.trans k2⟩
    rw [show (w.history env (op :: ops)).view = ((op.run env w).2.history env ops).view from rfl, ← h2]
    have e : ops.map (fun op' => (op'.value (op.run env w).2.mem, fs)) = ops.map fun op' => (op'.value w.mem, fs) :=
      List.map_congr_left fun op' h => by rw [(hok op' h).2]
    rw [e, List.map_cons]
    unfold Boundary.history
    rw [List.foldl_cons]
    simp only
    rw [h1]

/-! ## Writes of the caller -/

/-- A write into a 2-D array that is not part of what was computed: only the data notice it, and only if the array is the
one that was stored. -/
theorem boundary_write_mat {w : ProblemMem K} {r : Ref} (hr : r < w.mem.mats.length) (h : ¬ w.ComputedMat r)
    (l : List (List K)) :
    ProblemMem.view { w with mem := (mwrite r l w.mem).2 } = { w.view with
      data := w.self.data.map fun d =>
        if d.1 = r then ⟨[l.length, d.2], l.flatten⟩ else ⟨[(w.mem.mat d.1).length, d.2], (w.mem.mat d.1).flatten⟩ } := by
  have hm := mwrite_mat w.mem r (l := l) (hr := hr)
  have hc : ∀ c, (w.self.initCurve = some c ∨ w.self.fitCurve = some c) →
      (mwrite r l w.mem).2.curve c = w.mem.curve c := by
    intro c hc
    have e := hm (w.mem.curveObj c).ctrl
    rw [if_neg fun e => h (Or.inl ⟨c, hc, e⟩)] at e
    show (⟨_, (mwrite r l w.mem).2.mat (w.mem.curveObj c).ctrl, _⟩ : Curve K) = _
    rw [e]; rfl
  unfold ProblemMem.view
  simp only
  congr 1
  · cases w.self.data with
    | none => rfl
    | some d =>
      simp only [Option.map_some]
      rw [hm d.1]
      by_cases e : d.1 = r
      · rw [if_pos e, if_pos e]
      · rw [if_neg e, if_neg e]
  · cases e : w.self.initCurve with
    | none => rfl
    | some c => simp only [Option.map_some]; rw [hc c (Or.inl e)]
  · cases e : w.self.paramData with
    | none => rfl
    | some d => simp only [Option.map_some]; rw [hm d, if_neg fun e' => h (Or.inr (by rw [e, e']))]
  · cases e : w.self.fitCurve with
    | none => rfl
    | some c => simp only [Option.map_some]; rw [hc c (Or.inr e)]

/-- A write into a 1-D array that is not part of what was computed: only the end points notice it, and only if the array
is the one that was stored. -/
theorem boundary_write_vec {w : ProblemMem K} {r : Ref} (hr : r < w.mem.vecs.length) (h : ¬ w.ComputedVec r) (l : List K) :
    ProblemMem.view { w with mem := (vwrite r l w.mem).2 } = { w.view with
      start := w.self.start.map fun s => if s = r then ⟨[l.length], l⟩ else ⟨[(w.mem.vec s).length], w.mem.vec s⟩
      fin := w.self.fin.map fun s => if s = r then ⟨[l.length], l⟩ else ⟨[(w.mem.vec s).length], w.mem.vec s⟩ } := by
  have hm := vwrite_vec w.mem r (l := l) (hr := hr)
  have hc : ∀ c, (w.self.initCurve = some c ∨ w.self.fitCurve = some c) →
      (vwrite r l w.mem).2.curve c = w.mem.curve c := by
    intro c hc
    have e := hm (w.mem.curveObj c).kv
    rw [if_neg fun e => h ⟨c, hc, e⟩] at e
    show (⟨_, _, (vwrite r l w.mem).2.vec (w.mem.curveObj c).kv⟩ : Curve K) = _
    rw [e]; rfl
  have hp : ∀ o : Option Ref, o.map (fun s => (⟨[((vwrite r l w.mem).2.vec s).length], (vwrite r l w.mem).2.vec s⟩ : Arr K))
      = o.map fun s => if s = r then ⟨[l.length], l⟩ else ⟨[(w.mem.vec s).length], w.mem.vec s⟩ := by
    intro o
    cases o with
    | none => rfl
    | some s =>
      simp only [Option.map_some]
      rw [hm s]
      by_cases e : s = r
      · rw [if_pos e, if_pos e]
      · rw [if_neg e, if_neg e]
  unfold ProblemMem.view
  simp only
  rw [hp, hp]
  congr 1
  · cases e : w.self.initCurve with
    | none => rfl
    | some c => simp only [Option.map_some]; rw [hc c (Or.inl e)]
  · cases e : w.self.fitCurve with
    | none => rfl
    | some c => simp only [Option.map_some]; rw [hc c (Or.inr e)]

/-- `BoundaryProblem()`: no attribute refers to anything, and the method is `'fixed'`. -/
theorem boundary_new_memory (m : Mem K) :
    ProblemMem.view (⟨ProblemRefs.new, m⟩ : ProblemMem K) = Boundary.new ∧ ProblemMem.Good (⟨ProblemRefs.new, m⟩ : ProblemMem K) :=
  ⟨rfl, by constructor <;> intros <;> contradiction⟩

/-- After any sequence of calls on a new problem: whatever the caller writes into an array they had before, the initial
curve, the fitted curve and the data with parameters do not change. -/
theorem boundary_results_own (env : DataEnv K) (m : Mem K) (ops : List (ProblemOp K)) (hops : ∀ op ∈ ops, op.Ok m) :
    let w := ProblemMem.history env ⟨ProblemRefs.new, m⟩ ops
    (∀ r < m.mats.length, ∀ l, let v := ProblemMem.view { w with mem := (mwrite r l w.mem).2 }
      v.initCurve = w.view.initCurve ∧ v.fitCurve = w.view.fitCurve ∧ v.paramData = w.view.paramData) ∧
    (∀ r < m.vecs.length, ∀ l, let v := ProblemMem.view { w with mem := (vwrite r l w.mem).2 }
      v.initCurve = w.view.initCurve ∧ v.fitCurve = w.view.fitCurve ∧ v.paramData = w.view.paramData) := by
  intro w
  have hnew : ProblemMem.Good (⟨ProblemRefs.new, m⟩ : ProblemMem K) := by
    constructor <;> intros <;> contradiction
  have k := (boundary_session_memory env (fun _ => none) ops hnew hops).2
  refine ⟨fun r hr l => ?_, fun r hr l => ?_⟩
  · have hn : ¬ w.ComputedMat r := fun h => by
      rcases k.mat r hr h with ⟨c, hc | hc, -⟩ | hc <;> cases hc
    rw [boundary_write_mat (lt_of_lt_of_le hr k.mem.mats.length_le) hn l]
    exact ⟨rfl, rfl, rfl⟩
  · have hn : ¬ w.ComputedVec r := fun h => by
      rcases k.vec r hr h with ⟨c, hc | hc, -⟩ <;> cases hc
    rw [boundary_write_vec (lt_of_lt_of_le hr k.mem.vecs.length_le) hn l]
    exact ⟨rfl, rfl, rfl⟩

/-- A write that keeps the number of columns leaves a problem on which the next call is described by `boundary_memory`
again: it works with the new contents. -/
theorem boundary_write_good {w : ProblemMem K} (hw : w.Good) :
    (∀ (r : Ref) (l : List (List K)), (∀ c, w.self.data = some (r, c) → ∀ row ∈ l, row.length = c) →
      ProblemMem.Good { w with mem := (mwrite r l w.mem).2 }) ∧
    (∀ (r : Ref) (l : List K), ProblemMem.Good { w with mem := (vwrite r l w.mem).2 }) := by
  refine ⟨fun r l hl => ?_, fun r l => ?_⟩
  · have len : (mwrite r l w.mem).2.mats.length = w.mem.mats.length := by simp [mwrite]
    have live : ∀ c, LiveCurve w.mem c → LiveCurve (mwrite r l w.mem).2 c := fun c h =>
      ⟨h.obj, by rw [len]; exact h.ctrl, h.kv⟩
    refine ⟨fun r' c e => ?_, hw.start, hw.fin, fun c e => live c (hw.initCurve c e), fun r' e => ?_,
      fun c e => live c (hw.fitCurve c e)⟩
    · obtain ⟨h1, h2⟩ := hw.data r' c e
      refine ⟨len.symm ▸ h1, ?_⟩
      by_cases hr : r' = r
      · subst hr
        have e' := mwrite_mat w.mem r' r' l h1
        rw [if_pos rfl] at e'
        show ∀ row ∈ (mwrite r' l w.mem).2.mat r', _
        rw [e']
        exact hl c e
      · have e' : (mwrite r l w.mem).2.mat r' = w.mem.mat r' := by
          simp [mwrite, Mem.mat, List.getD_eq_getElem?_getD, List.getElem?_set_ne (Ne.symm hr)]
        show ∀ row ∈ (mwrite r l w.mem).2.mat r', _
        rw [e']
        exact h2
    · exact len.symm ▸ hw.paramData r' e
  · have len : (vwrite r l w.mem).2.vecs.length = w.mem.vecs.length := by simp [vwrite]
    have live : ∀ c, LiveCurve w.mem c → LiveCurve (vwrite r l w.mem).2 c := fun c h =>
      ⟨h.obj, h.ctrl, by rw [len]; exact h.kv⟩
    exact ⟨hw.data, fun r' e => len.symm ▸ hw.start r' e, fun r' e => len.symm ▸ hw.fin r' e,
      fun c e => live c (hw.initCurve c e), hw.paramData, fun c e => live c (hw.fitCurve c e)⟩

theorem setDataMem_ok {v : Arg K} {w w' : ProblemMem K} (h : setDataMem v w = (.ok (), w')) :
    ∃ a n c, (v.value w.mem).toArray = .ok a ∧ a.shape = [n, c] ∧ ∃ r w1, storeMat v a w = (.ok r, w1) ∧
      w' = { w1 with self := { w1.self with data := some (r, c) } } := by
  unfold setDataMem at h
  rw [Meth.read_bind] at h
  cases ha : (v.value w.mem).toArray with
  | error e =>
    rw [show id w = w from rfl, ha, Meth.lift_error_bind] at h
    cases h
  | ok a =>
    rw [show id w = w from rfl, ha, Meth.lift_ok_bind] at h
    by_cases h2 : a.shape.length ≠ 2
    · rw [if_pos h2, Meth.raise_apply] at h
      cases h
    rw [if_neg h2] at h
    cases hl : pyGet a.shape (-1) with
    | error e =>
      rw [hl, Meth.lift_error_bind] at h
      cases h
    | ok last =>
      rw [hl, Meth.lift_ok_bind] at h
      by_cases h3 : ¬ (last = 2 ∨ last = 3)
      · rw [if_pos h3, Meth.raise_apply] at h
        cases h
      rw [if_neg h3] at h
      cases hs : storeMat v a w with
      | mk r w1 =>
        cases r with
        | error e =>
          rw [Meth.bind_error hs] at h
          cases h
        | ok r =>
          rw [Meth.bind_ok hs] at h
          cases h
          obtain ⟨sh, dt⟩ := a
          match sh, h2 with
          | [n, c], _ => cases hl; exact ⟨_, n, _, rfl, rfl, r, w1, hs, rfl⟩
          | [], h2 => simp at h2
          | [_], h2 => simp at h2
          | _ :: _ :: _ :: _, h2 => simp at h2

theorem setStartMem_ok {v : Arg K} {w w' : ProblemMem K} (h : setStartMem v w = (.ok (), w')) :
    ∃ a n, (v.value w.mem).toArray = .ok a ∧ a.shape = [n] ∧ ∃ r w1, storeVec v a w = (.ok r, w1) ∧
      w' = { w1 with self := { w1.self with start := some r } } := by
  unfold setStartMem at h
  rw [Meth.read_bind] at h
  cases ha : (v.value w.mem).toArray with
  | error e =>
    rw [show id w = w from rfl, ha, Meth.lift_error_bind] at h
    cases h
  | ok a =>
    rw [show id w = w from rfl, ha, Meth.lift_ok_bind] at h
    by_cases h2 : a.shape.length ≠ 1
    · rw [if_pos h2, Meth.raise_apply] at h
      cases h
    rw [if_neg h2] at h
    cases hl : pyGet a.shape 0 with
    | error e =>
      rw [hl, Meth.lift_error_bind] at h
      cases h
    | ok last =>
      rw [hl, Meth.lift_ok_bind] at h
      by_cases h3 : ¬ (last = 2 ∨ last = 3)
      · rw [if_pos h3, Meth.raise_apply] at h
        cases h
      rw [if_neg h3] at h
      cases hs : storeVec v a w with
      | mk r w1 =>
        cases r with
        | error e =>
          rw [Meth.bind_error hs] at h
          cases h
        | ok r =>
          rw [Meth.bind_ok hs] at h
          cases h
          obtain ⟨n, hn⟩ := ProblemMem.shape_one h2
          exact ⟨a, n, rfl, hn, r, w1, hs, rfl⟩

theorem setEndMem_ok {v : Arg K} {w w' : ProblemMem K} (h : setEndMem v w = (.ok (), w')) :
    ∃ a n, (v.value w.mem).toArray = .ok a ∧ a.shape = [n] ∧ ∃ r w1, storeVec v a w = (.ok r, w1) ∧
      w' = { w1 with self := { w1.self with fin := some r } } := by
  unfold setEndMem at h
  rw [Meth.read_bind] at h
  cases ha : (v.value w.mem).toArray with
  | error e =>
    rw [show id w = w from rfl, ha, Meth.lift_error_bind] at h
    cases h
  | ok a =>
    rw [show id w = w from rfl, ha, Meth.lift_ok_bind] at h
    by_cases h2 : a.shape.length ≠ 1
    · rw [if_pos h2, Meth.raise_apply] at h
      cases h
    rw [if_neg h2] at h
    cases hl : pyGet a.shape 0 with
    | error e =>
      rw [hl, Meth.lift_error_bind] at h
      cases h
    | ok last =>
      rw [hl, Meth.lift_ok_bind] at h
      by_cases h3 : ¬ (last = 2 ∨ last = 3)
      · rw [if_pos h3, Meth.raise_apply] at h
        cases h
      rw [if_neg h3] at h
      cases hs : storeVec v a w with
      | mk r w1 =>
        cases r with
        | error e =>
          rw [Meth.bind_error hs] at h
          cases h
        | ok r =>
          rw [Meth.bind_ok hs] at h
          cases h
          obtain ⟨n, hn⟩ := ProblemMem.shape_one h2
          exact ⟨a, n, rfl, hn, r, w1, hs, rfl⟩

/-- `data` set to an array is that array: the getter follows what the caller writes into it, without the checks of the
setter.  Set to a list it is a new array, and no write into an array of the caller changes what the getter shows. -/
theorem boundary_data_shared {w w' : ProblemMem K} {v : Arg K} (hv : v.Ok w.mem)
    (h : setDataMem v w = (.ok (), w')) :
    match v with
    | .mat r c => ∀ l, (ProblemMem.view { w' with mem := (mwrite r l w'.mem).2 }).data = some ⟨[l.length, c], l.flatten⟩
    | _ => ∀ r < w.mem.mats.length, ∀ l, (ProblemMem.view { w' with mem := (mwrite r l w'.mem).2 }).data = w'.view.data := by
  obtain ⟨a, n, c, ha, hs, r0, w1, h1, rfl⟩ := setDataMem_ok h
  cases v with
  | mat r c' =>
    cases ha
    cases hs
    cases h1
    intro l
    have e := mwrite_mat w.mem r0 r0 l hv.1
    rw [if_pos rfl] at e
    show some (⟨[((mwrite r0 l _).2.mat r0).length, _], ((mwrite r0 l _).2.mat r0).flatten⟩ : Arr K) = _
    rw [e]
  | vec r =>
    cases ha
    cases hs
  | val v =>
    obtain ⟨m1, e1, g1, l1, v1⟩ := mnew_grown w.mem a.rows
    have h1' : (((mnew a.rows : Eff K Ref) w.mem).1, ({ w with mem := ((mnew a.rows : Eff K Ref) w.mem).2 } : ProblemMem K))
        = (.ok r0, w1) := h1
    rw [e1] at h1'
    cases h1'
    intro r hr l
    have e := mwrite_mat m1 r w.mem.mats.length l (lt_of_lt_of_le hr g1.mats_le)
    rw [if_neg (ne_of_gt hr)] at e
    show some (⟨[((mwrite r l m1).2.mat w.mem.mats.length).length, c], ((mwrite r l m1).2.mat w.mem.mats.length).flatten⟩ :
      Arr K) = _
    rw [e]
    rfl

/-- `start` likewise. -/
theorem boundary_start_shared {w w' : ProblemMem K} {v : Arg K} (hv : v.Ok w.mem)
    (h : setStartMem v w = (.ok (), w')) :
    match v with
    | .vec r => ∀ l, (ProblemMem.view { w' with mem := (vwrite r l w'.mem).2 }).start = some ⟨[l.length], l⟩
    | _ => ∀ r < w.mem.vecs.length, ∀ l, (ProblemMem.view { w' with mem := (vwrite r l w'.mem).2 }).start = w'.view.start := by
  obtain ⟨a, n, ha, hs, r0, w1, h1, rfl⟩ := setStartMem_ok h
  cases v with
  | vec r =>
    cases ha
    cases h1
    intro l
    have e := vwrite_vec w.mem r0 r0 l hv
    rw [if_pos rfl] at e
    show some (⟨[((vwrite r0 l _).2.vec r0).length], (vwrite r0 l _).2.vec r0⟩ : Arr K) = _
    rw [e]
  | mat r c' =>
    cases ha
    cases hs
  | val v =>
    obtain ⟨m1, e1, g1, l1, v1⟩ := vnew_grown w.mem a.data
    have h1' : (((vnew a.data : Eff K Ref) w.mem).1, ({ w with mem := ((vnew a.data : Eff K Ref) w.mem).2 } : ProblemMem K))
        = (.ok r0, w1) := h1
    rw [e1] at h1'
    cases h1'
    intro r hr l
    have e := vwrite_vec m1 r w.mem.vecs.length l (lt_of_lt_of_le hr g1.vecs_le)
    rw [if_neg (ne_of_gt hr)] at e
    show some (⟨[((vwrite r l m1).2.vec w.mem.vecs.length).length], (vwrite r l m1).2.vec w.mem.vecs.length⟩ : Arr K) = _
    rw [e]
    rfl

/-- `end` likewise. -/
theorem boundary_end_shared {w w' : ProblemMem K} {v : Arg K} (hv : v.Ok w.mem)
    (h : setEndMem v w = (.ok (), w')) :
    match v with
    | .vec r => ∀ l, (ProblemMem.view { w' with mem := (vwrite r l w'.mem).2 }).fin = some ⟨[l.length], l⟩
    | _ => ∀ r < w.mem.vecs.length, ∀ l, (ProblemMem.view { w' with mem := (vwrite r l w'.mem).2 }).fin = w'.view.fin := by
  obtain ⟨a, n, ha, hs, r0, w1, h1, rfl⟩ := setEndMem_ok h
  cases v with
  | vec r =>
    cases ha
    cases h1
    intro l
    have e := vwrite_vec w.mem r0 r0 l hv
    rw [if_pos rfl] at e
    show some (⟨[((vwrite r0 l _).2.vec r0).length], (vwrite r0 l _).2.vec r0⟩ : Arr K) = _
    rw [e]
  | mat r c' =>
    cases ha
    cases hs
  | val v =>
    obtain ⟨m1, e1, g1, l1, v1⟩ := vnew_grown w.mem a.data
    have h1' : (((vnew a.data : Eff K Ref) w.mem).1, ({ w with mem := ((vnew a.data : Eff K Ref) w.mem).2 } : ProblemMem K))
        = (.ok r0, w1) := h1
    rw [e1] at h1'
    cases h1'
    intro r hr l
    have e := vwrite_vec m1 r w.mem.vecs.length l (lt_of_lt_of_le hr g1.vecs_le)
    rw [if_neg (ne_of_gt hr)] at e
    show some (⟨[((vwrite r l m1).2.vec w.mem.vecs.length).length], (vwrite r l m1).2.vec w.mem.vecs.length⟩ : Arr K) = _
    rw [e]
    rfl

/-- After a `fit` that returns, initial and fitted curve have their own control points.  With `'fixed'` they have one
knot vector: a write into the knot vector of either changes both. -/
theorem boundary_fit_shares (env : DataEnv K) {w w' : ProblemMem K} (hw : w.Good) (h : fitMem env w = (.ok (), w')) :
    ∃ i t, w'.self.initCurve = some i ∧ w'.self.fitCurve = some t ∧
      (∀ l, (mwrite (w'.mem.curveObj t).ctrl l w'.mem).2.curve i = w'.mem.curve i) ∧
      (w.self.fitMethod ≠ "adaptive" → ∀ l,
        (vwrite (w'.mem.curveObj t).kv l w'.mem).2.curve i = { w'.mem.curve i with kv := l } ∧
        (vwrite (w'.mem.curveObj i).kv l w'.mem).2.curve t = { w'.mem.curve t with kv := l }) := by
  have hf := ProblemMem.fitMem_follows env hw
  unfold ProblemMem.Follows at hf
  cases hy : Boundary.fit env w.view with
  | mk r s =>
    rw [hy] at hf
    cases r with
    | error e =>
      obtain ⟨w1, h1, -⟩ := hf
      rw [h] at h1
      cases h1
    | ok b =>
      obtain ⟨_, w1, h1, -, k, i, t, hi, ht, hc, hk⟩ := hf
      rw [h] at h1
      cases h1
      have li := k.good.initCurve i hi
      have lt := k.good.fitCurve t ht
      refine ⟨i, t, hi, ht, fun l => ?_, fun hm l => ⟨?_, ?_⟩⟩
      · have e := mwrite_mat w'.mem (w'.mem.curveObj t).ctrl (w'.mem.curveObj i).ctrl l lt.ctrl
        rw [if_neg hc.symm] at e
        show (⟨_, (mwrite (w'.mem.curveObj t).ctrl l w'.mem).2.mat (w'.mem.curveObj i).ctrl, _⟩ : Curve K) = _
        rw [e]; rfl
      · have e := vwrite_vec w'.mem (w'.mem.curveObj t).kv (w'.mem.curveObj i).kv l lt.kv
        rw [if_pos (hk hm).symm] at e
        show (⟨_, _, (vwrite (w'.mem.curveObj t).kv l w'.mem).2.vec (w'.mem.curveObj i).kv⟩ : Curve K) = _
        rw [e]; rfl
      · have e := vwrite_vec w'.mem (w'.mem.curveObj i).kv (w'.mem.curveObj t).kv l li.kv
        rw [if_pos (hk hm)] at e
        show (⟨_, _, (vwrite (w'.mem.curveObj i).kv l w'.mem).2.vec (w'.mem.curveObj t).kv⟩ : Curve K) = _
        rw [e]; rfl

end

/-! ## Concrete cases -/

/-- The caller has the data in an array and the two ends in arrays. -/
def exCaller : Mem ℚ := ⟨[[0, 0, 0], [2, 0, 2]], [[[1/4, 1, 0], [1/2, 2, 1/2], [3/4, 1, 1]]], [], []⟩

/-- The problem is set up with the array of the data, the array of the start and a list for the end. -/
def exCalls : List (ProblemOp ℚ) :=
  [.degree (.int 2), .degree (.int (-1)), .data (.mat 0 3), .data (.vec 0), .start (.vec 0), .start (.mat 0 3),
   .fin (.val (.seq (.ok ⟨[3], [2, 0, 2]⟩))), .numCtrl (.int 4), .fitMethod (.str "adaptive")]

def exProblem : ProblemMem ℚ := ProblemMem.history exDataEnv ⟨ProblemRefs.new, exCaller⟩ exCalls

example : exProblem.self = ⟨some 2, some (0, 3), some 0, some 2, some 4, "adaptive", none, none, none⟩ ∧
    exProblem.view.data = some exPts := by decide +kernel

theorem exCalls_ok : ∀ op ∈ exCalls, op.Ok exCaller := by
  intro op h
  simp only [exCalls, List.mem_cons, List.not_mem_nil, or_false] at h
  rcases h with rfl | rfl | rfl | rfl | rfl | rfl | rfl | rfl | rfl
  all_goals first | trivial | exact (by decide : (0 : ℕ) < 2) | skip
  rintro a (h | h) <;> cases h
  rfl

/-- `boundary_session_memory` and `boundary_results_own` apply to these calls followed by a fit. -/
example : exCaller.mats <+: (exProblem.history exDataEnv [.fit]).mem.mats ∧
    ∀ l, (ProblemMem.view { exProblem.history exDataEnv [.fit] with
      mem := (mwrite 0 l (exProblem.history exDataEnv [.fit]).mem).2 }).fitCurve
        = (exProblem.history exDataEnv [.fit]).view.fitCurve := by
  have hops : ∀ op ∈ exCalls ++ [.fit], op.Ok exCaller := by
    intro op h
    rcases List.mem_append.1 h with h | h
    · exact exCalls_ok op h
    · rw [List.mem_singleton.1 h]; trivial
  have e : ProblemMem.history exDataEnv ⟨ProblemRefs.new, exCaller⟩ (exCalls ++ [.fit]) = exProblem.history exDataEnv [.fit] := by
    unfold exProblem ProblemMem.history
    rw [List.foldl_append]
  have h1 := (boundary_session_memory exDataEnv exNoFiles (exCalls ++ [.fit]) (w := ⟨ProblemRefs.new, exCaller⟩)
    (by constructor <;> intros <;> contradiction) hops).2.mem.mats
  have h2 := (boundary_results_own exDataEnv exCaller (exCalls ++ [.fit]) hops).1 0 (by decide)
  rw [e] at h1 h2
  exact ⟨h1, fun l => (h2 l).2.1⟩

/-- The complete fit in memory: what it computes is what the value model computes, the data and the ends of the caller
have their contents. -/
example : (fitMem exDataEnv exProblem).1 = .ok () ∧
    (fitMem exDataEnv exProblem).2.view = (Boundary.fit exDataEnv exProblem.view).2 ∧
    (fitMem exDataEnv exProblem).2.mem.mats.take 1 = exCaller.mats ∧
    (fitMem exDataEnv exProblem).2.mem.vecs.take 2 = exCaller.vecs := by decide +kernel

/-- After the fit the caller moves the first data point in their array: `data` shows it, the fitted curve and the
parameters are the old ones. -/
example :
    let w := (fitMem exDataEnv exProblem).2
    let w' : ProblemMem ℚ := { w with mem := (mwrite 0 [[9, 9, 9], [1/2, 2, 1/2], [3/4, 1, 1]] w.mem).2 }
    w'.view.data = some ⟨[3, 3], [9, 9, 9, 1/2, 2, 1/2, 3/4, 1, 1]⟩ ∧ w'.view.fitCurve = w.view.fitCurve ∧
      w'.view.paramData = w.view.paramData := by decide +kernel

/-- The array of the end was not passed, only a list with the same numbers: writing into it changes nothing, writing into
the array of the start changes the start. -/
example :
    (ProblemMem.view { exProblem with mem := (vwrite 1 [5, 5, 5] exProblem.mem).2 }) = exProblem.view ∧
    (ProblemMem.view { exProblem with mem := (vwrite 0 [5, 5] exProblem.mem).2 }).start = some ⟨[2], [5, 5]⟩ := by
  decide +kernel

/-- `'fixed'`: the two curves share their knot vector, with `'adaptive'` they do not. -/
example :
    let w := (fitMem exDataEnv { exProblem with self := { exProblem.self with fitMethod := "fixed" } }).2
    let v := (fitMem exDataEnv exProblem).2
    w.self.initCurve.map (fun c => (w.mem.curveObj c).kv) = w.self.fitCurve.map (fun c => (w.mem.curveObj c).kv) ∧
    v.self.initCurve.map (fun c => (v.mem.curveObj c).kv) ≠ v.self.fitCurve.map (fun c => (v.mem.curveObj c).kv) := by
  decide +kernel

end PySpline
