import Verif.Lemmas.Memory
import Verif.Lemmas.KnotFit

/-!
# The fitting functions on the memory
-/

namespace PySpline

section
variable {K : Type} [Field K] [LinearOrder K]
variable {m : Mem K}

omit [LinearOrder K] in
theorem linearFitFixedMem_sim (ls : ℕ → List (List K) → List K → List K) {R Q P : Ref}
    (hR : R < m.mats.length) (hQ : Q < m.vecs.length) (hP : P < m.vecs.length) (fixed : List Bool) :
    Sim (Grown m) (linearFitFixedMem ls R Q P fixed m)
      (linearFitFixed ls (m.mat R) (m.vec Q) (m.vec P) fixed) fun r m' x =>
        (r = P ∧ m' = m ∧ x = m.vec P ∧ ∀ i < (m.vec P).length, fixed.getD i false = true) ∨
        (r = m.vecs.length + 2 ∧ (∃ i < (m.vec P).length, fixed.getD i false = false) ∧
          ∃ q f a, m' = m.loc [q, f, x] a) := by
  unfold linearFitFixedMem linearFitFixed forN
  refine Sim.step (a := m.vec P) rfl ?_
  have hcount : ∀ c, (List.range' 0 ((m.vec P).length - 0)).foldlM (fun (s : ℕ) (i : ℕ) => (do
      let f ← pyGet fixed (i : ℤ)
      Except.ok (if f then s + 1 else s) : Py ℕ)) 0 = .ok c →
      (c = (m.vec P).length ↔ ∀ i < (m.vec P).length, fixed.getD i false = true) := by
    intro c hc
    have h := forN_ok (a := 0) (b := (m.vec P).length) (f := fun (i : ℕ) (s : ℕ) => (do
      let f ← pyGet fixed (i : ℤ)
      Except.ok (if f then s + 1 else s) : Py ℕ))
      (fun i s => s ≤ i ∧ (s = i ↔ ∀ j < i, fixed.getD j false = true)) hc (Nat.zero_le _)
      (by simp) ?_
    · exact h.2
    · rintro i s s' - hi ⟨h1, h2⟩ hs
      obtain ⟨f, hf, hs⟩ := bind_eq_ok hs
      cases hs
      have hf' := (pyGet_ok_nat false hf).2
      cases f with
      | true =>
        simp only [if_true]
        refine ⟨by omega, ?_⟩
        rw [Nat.add_right_cancel_iff, h2]
        refine ⟨fun h j hj => ?_, fun h j hj => h j (by omega)⟩
        rcases Nat.lt_succ_iff_lt_or_eq.1 hj with h' | rfl
        · exact h j h'
        · exact hf'
      | false =>
        simp only [Bool.false_eq_true, if_false]
        refine ⟨by omega, ⟨fun h => by omega, fun h => ?_⟩⟩
        rw [h i (by omega)] at hf'
        cases hf'
  have hloop := Sim.loop (K := K) (F := Grown m) (f := fun (i : ℕ) (nfixed : ℕ) => (do
    let f ← liftPy (pyGet fixed i)
    pure (if f then nfixed + 1 else nfixed) : Eff K ℕ)) (g := fun (i : ℕ) (s : ℕ) => (do
      let f ← pyGet fixed (i : ℤ)
      Except.ok (if f then s + 1 else s) : Py ℕ)) (fun s m' t => s = t ∧ m' = m) (by
    rintro i s m' t ⟨rfl, rfl⟩
    refine Sim.lift (Grown.refl _) fun f _ => ?_
    exact Sim.ok ⟨rfl, rfl⟩) (List.range' 0 ((m.vec P).length - 0)) 0 m 0 ⟨rfl, rfl⟩
  refine Sim.bind (hloop.mono (F' := Grown m) (fun _ h => h) (Q' := fun s m' t => s = t ∧ m' = m ∧
    (t = (m.vec P).length ↔ ∀ i < (m.vec P).length, fixed.getD i false = true))
    fun s m' t ht h => ⟨h.1, h.2, hcount t ht⟩) ?_
  rintro s m' t ⟨rfl, rfl, hc⟩
  by_cases hs : s = (m'.vec P).length
  · rw [if_pos hs, if_pos hs]
    exact Sim.ok (Or.inl ⟨rfl, rfl, rfl, hc.1 hs⟩)
  rw [if_neg hs, if_neg hs]
  have hne : ∃ i < (m'.vec P).length, fixed.getD i false = false := by
    by_contra hcon
    push Not at hcon
    exact hs (hc.2 fun i hi => by simpa using hcon i hi)
  dsimp only
  refine Sim.step (a := m'.vec Q) rfl ?_
  have e := mnew_loc m' [] [] (zeros2 (m'.vec Q).length ((m'.vec P).length - s))
  rw [m'.loc_nil] at e
  refine Sim.step e ?_
  refine Sim.step (mnew_loc m' _ _ _) ?_
  refine Sim.step (vnew_loc m' _ _ _) ?_
  simp only [List.nil_append, List.singleton_append, List.length_nil, List.length_singleton]
  refine Sim.bind (Sim.loop (fun (jk : ℕ × ℕ) mm (st : List (List K) × List (List K) × List K × ℕ × ℕ) =>
    mm = m'.loc [st.2.2.1] [st.1, st.2.1] ∧ jk = st.2.2.2) ?_ _ _ _ _ ⟨rfl, rfl⟩) ?_
  · rintro i jk mm ⟨A, B, q, j, k⟩ ⟨rfl, rfl⟩
    dsimp only
    refine Sim.lift (Grown.loc _ _ _) fun f _ => ?_
    refine Sim.step (mread_old m' _ _ hR) ?_
    refine Sim.lift (Grown.loc _ _ _) fun col _ => ?_
    cases f with
    | true =>
      simp only [if_true]
      refine Sim.bind (msetCol_loc m' _ _ 1 _ _) ?_
      rintro - mm B rfl
      refine Sim.step (vread_old m' _ _ hP) ?_
      refine Sim.lift (Grown.loc _ _ _) fun p _ => ?_
      refine Sim.step (vread_loc m' _ _ 0) ?_
      refine Sim.lift (Grown.loc _ _ _) fun q' _ => ?_
      refine Sim.step (vwrite_loc m' _ _ 0 _) ?_
      exact Sim.ok ⟨rfl, rfl⟩
    | false =>
      simp only [Bool.false_eq_true, if_false]
      refine Sim.bind (msetCol_loc m' _ _ 0 _ _) ?_
      rintro - mm B rfl
      exact Sim.ok ⟨rfl, rfl⟩
  rintro jk mm ⟨A, B, q, j, k⟩ ⟨rfl, rfl⟩
  dsimp only
  refine Sim.step (vread_old m' _ _ hQ) ?_
  refine Sim.step (vread_loc m' _ _ 0) ?_
  refine Sim.lift (Grown.loc _ _ _) fun b _ => ?_
  refine Sim.step (mread_loc m' _ _ 0) ?_
  refine Sim.step (vnew_loc m' _ _ _) ?_
  refine Sim.step (vnew_loc m' _ _ _) ?_
  refine Sim.bind (Sim.loop (fun (j : ℕ) mm (st : List K × ℕ) =>
    mm = m'.loc [q, ls ((m'.vec P).length - s) A b, st.1] [A, B] ∧ j = st.2) ?_ _ _ _ _ ⟨rfl, rfl⟩) ?_
  · rintro i j mm ⟨x, j'⟩ ⟨rfl, rfl⟩
    dsimp only
    refine Sim.lift (Grown.loc _ _ _) fun f _ => ?_
    cases f with
    | true =>
      simp only [if_true]
      refine Sim.step (vread_old m' _ _ hP) ?_
      refine Sim.lift (Grown.loc _ _ _) fun p _ => ?_
      refine Sim.bind (vset_loc m' _ _ 2 _ _) ?_
      rintro - mm B rfl
      exact Sim.ok ⟨rfl, rfl⟩
    | false =>
      simp only [Bool.false_eq_true, if_false]
      refine Sim.step (vread_loc m' _ _ 1) ?_
      refine Sim.lift (Grown.loc _ _ _) fun p _ => ?_
      refine Sim.bind (vset_loc m' _ _ 2 _ _) ?_
      rintro - mm B rfl
      exact Sim.ok ⟨rfl, rfl⟩
  rintro j mm ⟨x, j'⟩ ⟨rfl, rfl⟩
  exact Sim.ok (Or.inr ⟨rfl, hne, q, _, _, rfl⟩)

/-! ## Memory that has grown -/

omit [Field K] [LinearOrder K] in
theorem Grown.vec {m m' : Mem K} (h : Grown m m') {r : Ref} (hr : r < m.vecs.length) :
    m'.vec r = m.vec r := by
  obtain ⟨v, a, rfl⟩ := h
  exact m.loc_vec v a hr

omit [Field K] [LinearOrder K] in
theorem Grown.mat {m m' : Mem K} (h : Grown m m') {r : Ref} (hr : r < m.mats.length) :
    m'.mat r = m.mat r := by
  obtain ⟨v, a, rfl⟩ := h
  exact m.loc_mat v a hr

omit [Field K] [LinearOrder K] in
theorem Grown.vecs_le {m m' : Mem K} (h : Grown m m') : m.vecs.length ≤ m'.vecs.length := by
  obtain ⟨v, a, rfl⟩ := h
  simp [Mem.loc]

omit [Field K] [LinearOrder K] in
theorem Grown.mats_le {m m' : Mem K} (h : Grown m m') : m.mats.length ≤ m'.mats.length := by
  obtain ⟨v, a, rfl⟩ := h
  simp [Mem.loc]

omit [Field K] [LinearOrder K] in
theorem Grown.curves {m m' : Mem K} (h : Grown m m') : m'.curves = m.curves := by
  obtain ⟨v, a, rfl⟩ := h
  rfl

omit [Field K] [LinearOrder K] in
theorem Grown.surfs {m m' : Mem K} (h : Grown m m') : m'.surfs = m.surfs := by
  obtain ⟨v, a, rfl⟩ := h
  rfl

omit [Field K] [LinearOrder K] in
theorem vnew_grown (m : Mem K) (l : List K) : ∃ m', (vnew l : Eff K _) m = (.ok m.vecs.length, m') ∧
    Grown m m' ∧ m.vecs.length < m'.vecs.length ∧ m'.vec m.vecs.length = l := by
  have e := vnew_loc m [] [] l
  rw [m.loc_nil] at e
  refine ⟨_, e, Grown.loc _ _ _, by simp [Mem.loc], m.loc_vec_new _ _ 0⟩

omit [Field K] [LinearOrder K] in
theorem mnew_grown (m : Mem K) (l : List (List K)) :
    ∃ m', (mnew l : Eff K _) m = (.ok m.mats.length, m') ∧
    Grown m m' ∧ m.mats.length < m'.mats.length ∧ m'.mat m.mats.length = l := by
  have e := mnew_loc m [] [] l
  rw [m.loc_nil] at e
  refine ⟨_, e, Grown.loc _ _ _, by simp [Mem.loc], m.loc_mat_new _ _ 0⟩

omit [LinearOrder K] in
theorem linearFitFixedMem_grown (ls : ℕ → List (List K) → List K → List K) {R Q P : Ref}
    (hR : R < m.mats.length) (hQ : Q < m.vecs.length) (hP : P < m.vecs.length) (fixed : List Bool) :
    Sim (Grown m) (linearFitFixedMem ls R Q P fixed m)
      (linearFitFixed ls (m.mat R) (m.vec Q) (m.vec P) fixed) fun r m' x =>
        Grown m m' ∧ r < m'.vecs.length ∧ m'.vec r = x := by
  refine (linearFitFixedMem_sim ls hR hQ hP fixed).mono (fun _ h => h) ?_
  rintro r m' x - (⟨rfl, rfl, rfl, -⟩ | ⟨rfl, -, q, f, a, rfl⟩)
  · exact ⟨Grown.refl _, hP, rfl⟩
  · exact ⟨Grown.loc _ _ _, by simp [Mem.loc], m.loc_vec_new _ _ 2⟩

omit [LinearOrder K] in
theorem fitColumnsMem_sim (ls : ℕ → List (List K) → List K → List K) {R D P : Ref}
    (hR : R < m.mats.length) (hD : D < m.mats.length) (hP : P < m.mats.length) (fixed : List Bool) :
    Sim (Grown m) (fitColumnsMem ls R D P fixed m)
      (fitColumns ls (m.mat R) (m.mat D) (m.mat P) fixed) fun r m' x =>
        Grown m m' ∧ m.mats.length ≤ r ∧ r < m'.mats.length ∧ m'.mat r = x := by
  unfold fitColumnsMem fitColumns
  have stage : ∀ (m1 : Mem K) (_ : Grown m m1) (i : ℤ) (k : List K → Py (List (List K)))
      (f : Ref → Eff K Ref) (Q : Ref → Mem K → List (List K) → Prop),
      (∀ r m2 x, Grown m1 m2 → r < m2.vecs.length → m2.vec r = x → Sim (Grown m) (f r m2) (k x) Q) →
      Sim (Grown m) ((do
        let d ← mread D
        let q ← liftPy (column d i)
        let c ← mread P
        let p ← liftPy (column c i)
        let q ← vnew q
        let p ← vnew p
        let x ← linearFitFixedMem ls R q p fixed
        f x : Eff K Ref) m1) (do
        let q ← column (m.mat D) i
        let p ← column (m.mat P) i
        let x ← linearFitFixed ls (m.mat R) q p fixed
        k x) Q := by
    intro m1 h1 i k f Q hf
    refine Sim.step (a := m.mat D) (m' := m1) (by rw [← h1.mat hD]; rfl) ?_
    refine Sim.lift h1 fun q _ => ?_
    refine Sim.step (a := m.mat P) (m' := m1) (by rw [← h1.mat hP]; rfl) ?_
    refine Sim.lift h1 fun p _ => ?_
    obtain ⟨m2, e2, g2, l2, v2⟩ := vnew_grown m1 q
    refine Sim.step e2 ?_
    obtain ⟨m3, e3, g3, l3, v3⟩ := vnew_grown m2 p
    refine Sim.step e3 ?_
    have h3 : Grown m m3 := h1.trans (g2.trans g3)
    have hlin := linearFitFixedMem_grown (m := m3) ls (lt_of_lt_of_le hR h3.mats_le)
      (lt_of_lt_of_le l2 g3.vecs_le) l3 fixed
    rw [h3.mat hR, g3.vec l2, v2, v3] at hlin
    refine Sim.bind (hlin.mono (fun _ h => h3.trans h) fun _ _ _ _ h => h) ?_
    rintro r m4 x ⟨g4, l4, v4⟩
    exact hf r m4 x (g2.trans (g3.trans g4)) l4 v4
  refine stage m (Grown.refl m) 0 _ _ _ ?_
  intro x m1 xs g1 lx vx
  refine stage m1 g1 1 _ _ _ ?_
  intro y m2 ys g2 ly vy
  refine stage m2 (g1.trans g2) 2 _ _ _ ?_
  intro z m3 zs g3 lz vz
  refine Sim.step (a := xs) (m' := m3) ?_ ?_
  · show (Except.ok (m3.vec x), m3) = _
    rw [(g2.trans g3).vec lx, vx]
  refine Sim.step (a := ys) (m' := m3) ?_ ?_
  · show (Except.ok (m3.vec y), m3) = _
    rw [g3.vec ly, vy]
  refine Sim.step (a := zs) (m' := m3) ?_ ?_
  · show (Except.ok (m3.vec z), m3) = _
    rw [vz]
  have h3 : Grown m m3 := g1.trans (g2.trans g3)
  cases h : columnStack3 xs ys zs with
  | error e => exact ⟨m3, rfl, h3⟩
  | ok l =>
    obtain ⟨m4, e4, g4, l4, v4⟩ := mnew_grown m3 l
    exact ⟨_, m4, e4, h3.trans g4, h3.mats_le, l4, v4⟩

/-! ## Curve objects -/

/-- What changes from `m` to `m'` is at most the object `o`; new arrays may have appeared. -/
def OwnCurve (o : Ref) (m m' : Mem K) : Prop :=
  ∃ m1, Grown m m1 ∧ ∃ obj, m' = { m1 with curves := m1.curves.set o obj }

omit [Field K] [LinearOrder K] in
theorem OwnCurve.of_grown {o : Ref} {m m' : Mem K} (ho : o < m.curves.length) (h : Grown m m') :
    OwnCurve o m m' := by
  refine ⟨m', h, m'.curveObj o, ?_⟩
  have : m'.curves.set o (m'.curveObj o) = m'.curves := by
    have ho' : o < m'.curves.length := by rw [h.curves]; exact ho
    rw [Mem.curveObj, List.getD_eq_getElem?_getD, List.getElem?_eq_getElem ho']
    simp
  rw [this]

omit [Field K] [LinearOrder K] in
theorem OwnCurve.trans {o : Ref} {m m' m'' : Mem K} (h : OwnCurve o m m') (h' : OwnCurve o m' m'') :
    OwnCurve o m m'' := by
  obtain ⟨m1, ⟨v, a, rfl⟩, obj, rfl⟩ := h
  obtain ⟨m2, ⟨v', a', rfl⟩, obj', rfl⟩ := h'
  refine ⟨_, ⟨v ++ v', a ++ a', rfl⟩, obj', ?_⟩
  simp [Mem.loc]

omit [Field K] [LinearOrder K] in
theorem OwnCurve.vec {o : Ref} {m m' : Mem K} (h : OwnCurve o m m') {r : Ref}
    (hr : r < m.vecs.length) : m'.vec r = m.vec r := by
  obtain ⟨m1, h1, obj, rfl⟩ := h
  exact h1.vec hr

omit [Field K] [LinearOrder K] in
theorem OwnCurve.mat {o : Ref} {m m' : Mem K} (h : OwnCurve o m m') {r : Ref}
    (hr : r < m.mats.length) : m'.mat r = m.mat r := by
  obtain ⟨m1, h1, obj, rfl⟩ := h
  exact h1.mat hr

omit [Field K] [LinearOrder K] in
theorem OwnCurve.vecs_le {o : Ref} {m m' : Mem K} (h : OwnCurve o m m') :
    m.vecs.length ≤ m'.vecs.length := by
  obtain ⟨m1, h1, obj, rfl⟩ := h
  exact h1.vecs_le

omit [Field K] [LinearOrder K] in
theorem OwnCurve.mats_le {o : Ref} {m m' : Mem K} (h : OwnCurve o m m') :
    m.mats.length ≤ m'.mats.length := by
  obtain ⟨m1, h1, obj, rfl⟩ := h
  exact h1.mats_le

omit [Field K] [LinearOrder K] in
theorem OwnCurve.length {o : Ref} {m m' : Mem K} (h : OwnCurve o m m') :
    m'.curves.length = m.curves.length := by
  obtain ⟨m1, h1, obj, rfl⟩ := h
  simp [h1.curves]

omit [Field K] [LinearOrder K] in
theorem OwnCurve.other {o : Ref} {m m' : Mem K} (h : OwnCurve o m m') {r : Ref} (hr : r ≠ o) :
    m'.curveObj r = m.curveObj r := by
  obtain ⟨m1, h1, obj, rfl⟩ := h
  simp [Mem.curveObj, h1.curves, List.getD_eq_getElem?_getD, List.getElem?_set_ne hr.symm]

omit [Field K] [LinearOrder K] in
theorem OwnCurve.surfs {o : Ref} {m m' : Mem K} (h : OwnCurve o m m') : m'.surfs = m.surfs := by
  obtain ⟨m1, h1, obj, rfl⟩ := h
  exact h1.surfs

/-- What a call that reassigns attributes of the curve object `o` leaves behind. -/
structure CurveAfter (o : Ref) (m m' : Mem K) (c : Curve K) : Prop where
  own : OwnCurve o m m'
  live : LiveCurve m' o
  value : m'.curve o = c

omit [Field K] [LinearOrder K] in
theorem writeCurve_after {o : Ref} {m m1 : Mem K} (ho : o < m.curves.length) (h : Grown m m1)
    (obj : CurveObj) (hc : obj.ctrl < m1.mats.length) (hk : obj.kv < m1.vecs.length) :
    ∃ m', (writeCurveObj o obj : Eff K Unit) m1 = (.ok (), m') ∧ m'.curveObj o = obj ∧
      CurveAfter o m m' ⟨obj.degree, m1.mat obj.ctrl, m1.vec obj.kv⟩ := by
  have e : ({ m1 with curves := m1.curves.set o obj } : Mem K).curveObj o = obj := by
    have ho' : o < m1.curves.length := by rw [h.curves]; exact ho
    simp [Mem.curveObj, List.getD_eq_getElem?_getD, ho']
  refine ⟨_, rfl, e, ⟨m1, h, obj, rfl⟩, ⟨?_, ?_, ?_⟩, ?_⟩
  · simpa [h.curves] using ho
  · rw [e]; exact hc
  · rw [e]; exact hk
  · rw [Mem.curve, e]; rfl

omit [Field K] [LinearOrder K] in
theorem Grown.curveObj {m m' : Mem K} (h : Grown m m') (o : Ref) : m'.curveObj o = m.curveObj o := by
  rw [Mem.curveObj, h.curves, Mem.curveObj]

omit [Field K] [LinearOrder K] in
theorem Grown.curve {m m' : Mem K} (h : Grown m m') {o : Ref} (ho : LiveCurve m o) :
    m'.curve o = m.curve o := by
  rw [Mem.curve, h.curveObj, h.mat ho.ctrl, h.vec ho.kv, Mem.curve]

omit [Field K] [LinearOrder K] in
theorem Grown.live {m m' : Mem K} (h : Grown m m') {o : Ref} (ho : LiveCurve m o) :
    LiveCurve m' o :=
  ⟨by rw [h.curves]; exact ho.obj, by rw [h.curveObj]; exact lt_of_lt_of_le ho.ctrl h.mats_le,
    by rw [h.curveObj]; exact lt_of_lt_of_le ho.kv h.vecs_le⟩

theorem singleFitCurveMem_sim (ls : ℕ → List (List K) → List K → List K) {o D : Ref}
    (ho : LiveCurve m o) (hD : D < m.mats.length) :
    Sim (Grown m) (singleFitCurveMem ls o D m) (singleFitCurve ls (m.curve o) (m.mat D))
      fun _ m' c => CurveAfter o m m' c ∧ m.mats.length ≤ (m'.curveObj o).ctrl ∧
        (m'.curveObj o).kv = (m.curveObj o).kv := by
  unfold singleFitCurveMem singleFitCurve
  refine Sim.step (a := m.curve o) rfl ?_
  refine Sim.step (a := m.mat D) rfl ?_
  refine Sim.lift (Grown.refl m) fun M _ => ?_
  refine Sim.lift (Grown.refl m) fun _ _ => ?_
  refine Sim.lift (Grown.refl m) fun fx _ => ?_
  obtain ⟨m1, e1, g1, l1, v1⟩ := mnew_grown m M
  refine Sim.step e1 ?_
  refine Sim.step (a := m.curveObj o) (m' := m1) ?_ ?_
  · show (Except.ok (m1.curveObj o), m1) = _
    rw [g1.curveObj]
  have hcol := fitColumnsMem_sim (m := m1) ls l1 (lt_of_lt_of_le hD g1.mats_le)
    (lt_of_lt_of_le ho.ctrl g1.mats_le) fx
  rw [v1, g1.mat hD, g1.mat ho.ctrl] at hcol
  refine Sim.bind (hcol.mono (fun _ h => g1.trans h) fun _ _ _ _ h => h) ?_
  rintro r m2 x ⟨g2, l2, l2', v2⟩
  obtain ⟨m3, e3, o3, a3⟩ := writeCurve_after ho.obj (g1.trans g2)
    { m.curveObj o with ctrl := r } l2' (lt_of_lt_of_le ho.kv (g1.trans g2).vecs_le)
  refine ⟨(), m3, e3, ?_, ?_, ?_⟩
  · rw [(g1.trans g2).vec ho.kv, v2] at a3
    exact a3
  · rw [o3]; exact le_trans g1.mats_le l2
  · rw [o3]

theorem insertKnotMem_sim {o : Ref} (ho : LiveCurve m o) (u : K) :
    Sim (Grown m) (insertKnotMem o u m) ((m.curve o).insertKnot u)
      fun _ m' c => CurveAfter o m m' c ∧ m.mats.length ≤ (m'.curveObj o).ctrl ∧
        m.vecs.length ≤ (m'.curveObj o).kv := by
  unfold insertKnotMem Curve.insertKnot
  by_cases hu : validateKnot u = false
  · rw [if_pos hu, if_pos hu]
    exact Sim.error (Grown.refl m)
  rw [if_neg hu, if_neg hu]
  refine Sim.step (a := m.curveObj o) rfl ?_
  refine Sim.bind (curveKnotInsertionMem_sim m (m.curveObj o).degree ho.kv ho.ctrl u 1) ?_
  rintro _ m1 ⟨kv, pts⟩ ⟨rfl, R, rfl⟩
  obtain ⟨m3, e3, o3, a3⟩ := writeCurve_after ho.obj (Grown.loc m [kv] [pts, R])
    { m.curveObj o with ctrl := m.mats.length, kv := m.vecs.length } (by simp [Mem.loc])
    (by simp [Mem.loc])
  refine ⟨(), m3, e3, ?_, ?_, ?_⟩
  · have e1 := m.loc_vec_new [kv] [pts, R] 0
    have e2 := m.loc_mat_new [kv] [pts, R] 0
    rw [Nat.add_zero] at e1 e2
    rw [e1, e2] at a3
    exact a3
  · rw [o3]
  · rw [o3]

theorem parameterizeCurveMem_sim (env : FitEnv K) (o D : Ref) :
    Sim (Grown m) (parameterizeCurveMem env o D m)
      (parameterizeCurve env.num (env.curveLike (m.curve o)) (m.mat D))
      fun r m' x => Grown m m' ∧ r < m'.mats.length ∧ m'.mat r = x := by
  unfold parameterizeCurveMem
  refine Sim.step (a := m.curve o) rfl ?_
  refine Sim.step (a := m.mat D) rfl ?_
  cases h : parameterizeCurve env.num (env.curveLike (m.curve o)) (m.mat D) with
  | error e => exact ⟨m, rfl, Grown.refl m⟩
  | ok l =>
    obtain ⟨m1, e1, g1, l1, v1⟩ := mnew_grown m l
    exact ⟨_, m1, e1, g1, l1, v1⟩

theorem knotFitLoopMem_sim (env : FitEnv K) {D : Ref} (numPts : ℤ) :
    ∀ (fuel : ℕ) {m : Mem K} {o : Ref}, LiveCurve m o → D < m.mats.length →
      Sim (OwnCurve o m) (knotFitLoopMem env D numPts fuel o m)
        (knotFitLoop env (m.mat D) numPts fuel (m.curve o)) fun _ m' c =>
          CurveAfter o m m' c ∧ m.mats.length ≤ (m'.curveObj o).ctrl ∧
          (((m'.curveObj o).kv = (m.curveObj o).kv ∧ numPts ≤ (m.curve o).ctrlpts.length) ∨
            (m.vecs.length ≤ (m'.curveObj o).kv ∧ ((m.curve o).ctrlpts.length : ℤ) < numPts)) := by
  intro fuel
  induction fuel with
  | zero =>
    intro m o ho hD
    exact ⟨m, rfl, OwnCurve.of_grown ho.obj (Grown.refl m)⟩
  | succ fuel ih =>
    intro m o ho hD
    unfold knotFitLoopMem knotFitLoop
    refine Sim.bind ((parameterizeCurveMem_sim env o D).mono
      (fun _ h => OwnCurve.of_grown ho.obj h) fun _ _ _ _ h => h) ?_
    rintro r m1 param ⟨g1, l1, v1⟩
    have hs := singleFitCurveMem_sim (m := m1) env.lstsq (g1.live ho) l1
    rw [g1.curve ho, v1] at hs
    refine Sim.bind (hs.mono (F' := OwnCurve o m) (fun _ h => OwnCurve.of_grown ho.obj (g1.trans h))
      (Q' := fun _ m' c => CurveAfter o m m' c ∧ m.mats.length ≤ (m'.curveObj o).ctrl ∧
        (m'.curveObj o).kv = (m.curveObj o).kv ∧ c.ctrlpts.length = (m.curve o).ctrlpts.length) ?_) ?_
    · rintro - m2 c hc ⟨a2, h1, h2⟩
      exact ⟨⟨(OwnCurve.of_grown ho.obj g1).trans a2.own, a2.live, a2.value⟩,
        le_trans g1.mats_le h1, by rw [h2, g1.curveObj], (singleFitCurve_ok hc).2.2.2.1.1⟩
    rintro - m2 c ⟨a2, h1, h2, h3⟩
    refine Sim.step (a := c) (m' := m2) ?_ ?_
    · show (Except.ok (m2.curve o), m2) = _
      rw [a2.value]
    by_cases hn : (c.ctrlpts.length : ℤ) ≥ numPts
    · rw [if_pos hn, if_pos hn]
      exact Sim.ok ⟨a2, h1, Or.inl ⟨h2, by omega⟩⟩
    rw [if_neg hn, if_neg hn]
    refine Sim.lift a2.own fun knots _ => ?_
    unfold forL
    refine Sim.bind (Sim.loop (F := OwnCurve o m) (fun _ m' c' => CurveAfter o m2 m' c' ∧
      m.mats.length ≤ (m'.curveObj o).ctrl ∧
      (((m'.curveObj o).kv = (m.curveObj o).kv ∧ c'.ctrlpts.length = (m.curve o).ctrlpts.length) ∨
        m.vecs.length ≤ (m'.curveObj o).kv)) ?_ knots () m2 c
      ⟨⟨OwnCurve.of_grown a2.live.obj (Grown.refl _), a2.live, a2.value⟩, h1, Or.inl ⟨h2, h3⟩⟩) ?_
    · rintro u - m3 c3 ⟨a3, h4, h5⟩
      have hi := insertKnotMem_sim a3.live u
      rw [a3.value] at hi
      refine hi.mono (fun _ h => a2.own.trans (a3.own.trans (OwnCurve.of_grown a3.live.obj h))) ?_
      rintro - m4 c4 - ⟨a4, h6, h7⟩
      refine ⟨⟨a3.own.trans a4.own, a4.live, a4.value⟩, ?_, Or.inr ?_⟩
      · exact le_trans (le_trans a2.own.mats_le a3.own.mats_le) h6
      · exact le_trans (le_trans a2.own.vecs_le a3.own.vecs_le) h7
    rintro - m3 c3 ⟨a3, h4, h5⟩
    have hown : OwnCurve o m m3 := a2.own.trans a3.own
    have hrec := ih a3.live (lt_of_lt_of_le hD hown.mats_le)
    rw [hown.mat hD, a3.value] at hrec
    refine hrec.mono (fun _ h => hown.trans h) ?_
    rintro - m4 c4 - ⟨a4, h6, h7⟩
    refine ⟨⟨hown.trans a4.own, a4.live, a4.value⟩, le_trans hown.mats_le h6, Or.inr ⟨?_, by omega⟩⟩
    rcases h7 with ⟨h7, h8⟩ | ⟨h7, -⟩
    · rcases h5 with ⟨h5, h9⟩ | h5
      · omega
      · rw [h7]; exact h5
    · exact le_trans hown.vecs_le h7

omit [Field K] [LinearOrder K] in
theorem Grown.unwritten {m m' : Mem K} (h : Grown m m') : Unwritten m m' := by
  obtain ⟨v, a, rfl⟩ := h
  exact ⟨List.prefix_append _ _, List.prefix_append _ _, List.prefix_rfl, List.prefix_rfl⟩

omit [Field K] [LinearOrder K] in
theorem Unwritten.trans {m m' m'' : Mem K} (h : Unwritten m m') (h' : Unwritten m' m'') : Unwritten m m'' :=
  ⟨h.vecs.trans h'.vecs, h.mats.trans h'.mats, h.curves.trans h'.curves, h.surfs.trans h'.surfs⟩

omit [Field K] [LinearOrder K] in
theorem getD_of_prefix {α : Type} {l l' : List α} (h : l <+: l') {r : ℕ} (hr : r < l.length) (d : α) :
    l'.getD r d = l.getD r d := by
  obtain ⟨t, rfl⟩ := h
  simp [List.getD_eq_getElem?_getD, List.getElem?_append_left hr]

omit [Field K] [LinearOrder K] in
theorem Unwritten.vec {m m' : Mem K} (h : Unwritten m m') {r : Ref} (hr : r < m.vecs.length) :
    m'.vec r = m.vec r := getD_of_prefix h.vecs hr _

omit [Field K] [LinearOrder K] in
theorem Unwritten.mat {m m' : Mem K} (h : Unwritten m m') {r : Ref} (hr : r < m.mats.length) :
    m'.mat r = m.mat r := getD_of_prefix h.mats hr _

omit [Field K] [LinearOrder K] in
theorem Unwritten.curveObj {m m' : Mem K} (h : Unwritten m m') {r : Ref} (hr : r < m.curves.length) :
    m'.curveObj r = m.curveObj r := getD_of_prefix h.curves hr _

omit [Field K] [LinearOrder K] in
theorem Unwritten.surfObj {m m' : Mem K} (h : Unwritten m m') {r : Ref} (hr : r < m.surfs.length) :
    m'.surfObj r = m.surfObj r := getD_of_prefix h.surfs hr _

omit [Field K] [LinearOrder K] in
theorem Unwritten.live {m m' : Mem K} (h : Unwritten m m') {o : Ref} (ho : LiveCurve m o) : LiveCurve m' o := by
  refine ⟨lt_of_lt_of_le ho.obj h.curves.length_le, ?_, ?_⟩
  · rw [h.curveObj ho.obj]; exact lt_of_lt_of_le ho.ctrl h.mats.length_le
  · rw [h.curveObj ho.obj]; exact lt_of_lt_of_le ho.kv h.vecs.length_le

omit [Field K] [LinearOrder K] in
theorem Unwritten.curve {m m' : Mem K} (h : Unwritten m m') {o : Ref} (ho : LiveCurve m o) :
    m'.curve o = m.curve o := by
  rw [Mem.curve, h.curveObj ho.obj, h.mat ho.ctrl, h.vec ho.kv, Mem.curve]

omit [Field K] [LinearOrder K] in
theorem OwnCurve.unwrittenBut {o : Ref} {m m' : Mem K} (h : OwnCurve o m m') : UnwrittenBut o m m' := by
  refine ⟨?_, ?_, h.length, fun r hr => h.other hr, h.surfs⟩
  · obtain ⟨m1, ⟨v, a, rfl⟩, obj, rfl⟩ := h
    exact List.prefix_append _ _
  · obtain ⟨m1, ⟨v, a, rfl⟩, obj, rfl⟩ := h
    exact List.prefix_append _ _

omit [Field K] [LinearOrder K] in
/-- After a new curve object has been created only that object changes. -/
theorem Unwritten.of_newCurve {m m' : Mem K} {c : CurveObj}
    (h : OwnCurve m.curves.length { m with curves := m.curves ++ [c] } m') : Unwritten m m' := by
  obtain ⟨m1, ⟨v, a, rfl⟩, obj, rfl⟩ := h
  refine ⟨List.prefix_append _ _, List.prefix_append _ _, ?_, List.prefix_rfl⟩
  simp [Mem.loc]

omit [Field K] [LinearOrder K] in
theorem newCurve_live {m : Mem K} {c : CurveObj} (hc : c.ctrl < m.mats.length)
    (hk : c.kv < m.vecs.length) :
    ({ m with curves := m.curves ++ [c] } : Mem K).curveObj m.curves.length = c ∧
    LiveCurve ({ m with curves := m.curves ++ [c] } : Mem K) m.curves.length := by
  have e : ({ m with curves := m.curves ++ [c] } : Mem K).curveObj m.curves.length = c := by
    simp [Mem.curveObj, List.getD_eq_getElem?_getD]
  exact ⟨e, by simp, by rw [e]; exact hc, by rw [e]; exact hk⟩

theorem fitCurveKnotInsertionMem_sim (fuel : ℕ) (env : FitEnv K) {o D : Ref} (ho : LiveCurve m o)
    (hD : D < m.mats.length) (numPts : ℤ) :
    Sim (Unwritten m) (fitCurveKnotInsertionMem fuel env o D numPts m)
      (fitCurveKnotInsertion fuel env (m.curve o) (m.mat D) numPts) fun t m' c =>
        Unwritten m m' ∧ t = m.curves.length ∧ LiveCurve m' t ∧ m'.curve t = c ∧
        m.mats.length ≤ (m'.curveObj t).ctrl ∧
        (((m'.curveObj t).kv = (m.curveObj o).kv ∧ numPts ≤ (m.curve o).ctrlpts.length) ∨
          (m.vecs.length ≤ (m'.curveObj t).kv ∧ ((m.curve o).ctrlpts.length : ℤ) < numPts)) := by
  unfold fitCurveKnotInsertionMem fitCurveKnotInsertion
  refine Sim.step (a := m.curveObj o) rfl ?_
  refine Sim.step (a := m.curves.length) rfl ?_
  obtain ⟨e, hl⟩ := newCurve_live (c := m.curveObj o) ho.ctrl ho.kv
  have h := knotFitLoopMem_sim env (D := D) numPts fuel hl hD
  have ev : ({ m with curves := m.curves ++ [m.curveObj o] } : Mem K).curve m.curves.length
      = m.curve o := by
    rw [Mem.curve, e]; rfl
  rw [ev] at h
  rw [← bind_pure (knotFitLoop env (m.mat D) numPts fuel (m.curve o))]
  refine Sim.bind (h.mono (fun _ h => Unwritten.of_newCurve h) fun _ _ _ _ h => h) ?_
  rintro - m' c ⟨a, h1, h2⟩
  rw [e] at h2
  exact Sim.ok ⟨Unwritten.of_newCurve a.own, rfl, a.live, a.value, h1, h2⟩

theorem fitCurveFixedMem_sim (fuel : ℕ) (env : FitEnv K) {o D : Ref} (ho : LiveCurve m o)
    (hD : D < m.mats.length) :
    Sim (Unwritten m) (fitCurveFixedMem fuel env o D m)
      (fitCurveFixed fuel env (m.curve o) (m.mat D)) fun t m' c =>
        Unwritten m m' ∧ m.curves.length ≤ t ∧ LiveCurve m' t ∧ m'.curve t = c ∧
        m.mats.length ≤ (m'.curveObj t).ctrl ∧ (m'.curveObj t).kv = (m.curveObj o).kv := by
  unfold fitCurveFixedMem fitCurveFixed
  have k0 : Unwritten m m := (Grown.refl m).unwritten
  refine Sim.step (a := m.curve o) rfl ?_
  refine Sim.lift k0 fun first _ => ?_
  refine Sim.lift k0 fun last _ => ?_
  -- the initial curve
  have hinit : Sim (Unwritten m) (initializeCurveMem first last (m.curve o).degree ((m.curve o).degree + 1) m)
      (initializeCurve first last (m.curve o).degree ((m.curve o).degree + 1)) fun i m' c =>
        Unwritten m m' ∧ LiveCurve m' i ∧ m'.curve i = c := by
    unfold initializeCurveMem
    cases hi : initializeCurve first last (m.curve o).degree ((m.curve o).degree + 1) with
    | error e => exact ⟨m, rfl, k0⟩
    | ok c =>
      obtain ⟨m1, e1, g1, l1, v1⟩ := mnew_grown m c.ctrlpts
      obtain ⟨m2, e2, g2, l2, v2⟩ := vnew_grown m1 c.kv
      refine Sim.step (a := c) (m' := m) rfl ?_
      refine Sim.step e1 ?_
      refine Sim.step e2 ?_
      obtain ⟨e, hl⟩ := newCurve_live (m := m2) (c := ⟨c.degree, m.mats.length, m1.vecs.length⟩)
        (lt_of_lt_of_le l1 g2.mats_le) l2
      refine ⟨_, _, rfl, (g1.trans g2).unwritten.trans ?_, hl, ?_⟩
      · exact ⟨List.prefix_rfl, List.prefix_rfl, List.prefix_append _ _, List.prefix_rfl⟩
      · rw [Mem.curve, e]
        show (⟨c.degree, m2.mat m.mats.length, m2.vec m1.vecs.length⟩ : Curve K) = c
        rw [g2.mat l1, v1, v2]
  refine Sim.bind hinit ?_
  rintro i m1 ic ⟨k1, li, vi⟩
  refine Sim.step (a := ic) (m' := m1) (by rw [← vi]; rfl) ?_
  have hD1 : D < m1.mats.length := lt_of_lt_of_le hD k1.mats.length_le
  have hfit := fitCurveKnotInsertionMem_sim fuel env li hD1 ic.ctrlpts.length
  rw [vi, k1.mat hD] at hfit
  refine Sim.bind (hfit.mono (fun _ h => k1.trans h) fun _ _ _ _ h => h) ?_
  rintro f m2 fc ⟨k2, -, lf, vf, -, -⟩
  have k12 := k1.trans k2
  have hpar := parameterizeCurveMem_sim (m := m2) env f D
  rw [vf, k12.mat hD] at hpar
  refine Sim.bind (hpar.mono (fun _ h => k12.trans h.unwritten) fun _ _ _ _ h => h) ?_
  rintro pr m3 param ⟨g3, l3, v3⟩
  have k3 : Unwritten m m3 := k12.trans g3.unwritten
  refine Sim.step (a := m.curveObj o) (m' := m3) (by rw [← k3.curveObj ho.obj]; rfl) ?_
  refine Sim.step (a := m3.curves.length) rfl ?_
  have hlive := k3.live ho
  have h3obj := k3.curveObj ho.obj
  obtain ⟨e, hl⟩ := newCurve_live (m := m3) (c := m.curveObj o)
    (by rw [← h3obj]; exact hlive.ctrl) (by rw [← h3obj]; exact hlive.kv)
  set m4 : Mem K := { m3 with curves := m3.curves ++ [m.curveObj o] } with hm4
  have ev : m4.curve m3.curves.length = m.curve o := by
    rw [Mem.curve, e, ← k3.curve ho, Mem.curve, h3obj]; rfl
  have k4 : Unwritten m3 m4 :=
    ⟨List.prefix_rfl, List.prefix_rfl, List.prefix_append _ _, List.prefix_rfl⟩
  have own4 : ∀ {m5 : Mem K}, OwnCurve m3.curves.length m4 m5 → Unwritten m m5 := fun h =>
    k3.trans (Unwritten.of_newCurve h)
  -- the first fit
  have hs := singleFitCurveMem_sim (m := m4) env.lstsq hl (D := pr) l3
  rw [ev] at hs
  have e4 : m4.mat pr = param := v3
  rw [e4] at hs
  refine Sim.bind (hs.mono (fun _ h => own4 (OwnCurve.of_grown hl.obj h)) fun _ _ _ _ h => h) ?_
  rintro - m5 c5 ⟨a5, h5, h5'⟩
  have k5 := own4 a5.own
  have hpar2 := parameterizeCurveMem_sim (m := m5) env m3.curves.length D
  rw [a5.value, k5.mat hD] at hpar2
  refine Sim.bind (hpar2.mono (fun _ h => k5.trans h.unwritten) fun _ _ _ _ h => h) ?_
  rintro pr6 m6 param6 ⟨g6, l6, v6⟩
  have hs2 := singleFitCurveMem_sim (m := m6) env.lstsq (g6.live a5.live) l6
  rw [g6.curve a5.live, a5.value, v6] at hs2
  rw [← bind_pure (singleFitCurve env.lstsq c5 param6)]
  refine Sim.bind (hs2.mono (fun _ h => (k5.trans g6.unwritten).trans h.unwritten) fun _ _ _ _ h => h) ?_
  rintro - m7 c7 ⟨a7, h7, h7'⟩
  have own7 := (a5.own.trans (OwnCurve.of_grown a5.live.obj g6)).trans a7.own
  refine Sim.ok ⟨own4 own7, k3.curves.length_le, a7.live, a7.value, ?_, ?_⟩
  · exact le_trans (k5.trans g6.unwritten).mats.length_le h7
  · rw [h7', g6.curveObj, h5', e]

/-! ## Surface objects -/

omit [Field K] [LinearOrder K] in
theorem Grown.surfObj {m m' : Mem K} (h : Grown m m') (o : Ref) : m'.surfObj o = m.surfObj o := by
  rw [Mem.surfObj, h.surfs, Mem.surfObj]

theorem singleFitSurfaceMem_sim (ls : ℕ → List (List K) → List K → List K) {o D : Ref}
    (ho : LiveSurf m o) (hD : D < m.mats.length) :
    Sim (Grown m) (singleFitSurfaceMem ls o D m) (singleFitSurface ls (m.surface o) (m.mat D))
      fun _ m' c => ∃ m1 r, Grown m m1 ∧ m.mats.length ≤ r ∧ r < m1.mats.length ∧
        m' = { m1 with surfs := m1.surfs.set o { m.surfObj o with ctrl := r } } ∧
        LiveSurf m' o ∧ m'.surfObj o = { m.surfObj o with ctrl := r } ∧ m'.surface o = c := by
  unfold singleFitSurfaceMem singleFitSurface
  refine Sim.step (a := m.surface o) rfl ?_
  refine Sim.step (a := m.mat D) rfl ?_
  refine Sim.lift (Grown.refl m) fun M _ => ?_
  refine Sim.lift (Grown.refl m) fun _ _ => ?_
  refine Sim.lift (Grown.refl m) fun fx _ => ?_
  obtain ⟨m1, e1, g1, l1, v1⟩ := mnew_grown m M
  refine Sim.step e1 ?_
  refine Sim.step (a := m.surfObj o) (m' := m1) ?_ ?_
  · show (Except.ok (m1.surfObj o), m1) = _
    rw [g1.surfObj]
  have hcol := fitColumnsMem_sim (m := m1) ls l1 (lt_of_lt_of_le hD g1.mats_le)
    (lt_of_lt_of_le ho.ctrl g1.mats_le) fx
  rw [v1, g1.mat hD, g1.mat ho.ctrl] at hcol
  refine Sim.bind (hcol.mono (fun _ h => g1.trans h) fun _ _ _ _ h => h) ?_
  rintro r m2 x ⟨g2, l2, l2', v2⟩
  have g12 := g1.trans g2
  have e : ({ m2 with surfs := m2.surfs.set o { m.surfObj o with ctrl := r } } : Mem K).surfObj o
      = { m.surfObj o with ctrl := r } := by
    have ho' : o < m2.surfs.length := by rw [g12.surfs]; exact ho.obj
    simp [Mem.surfObj, List.getD_eq_getElem?_getD, ho']
  refine ⟨(), _, rfl, m2, r, g12, le_trans g1.mats_le l2, l2', rfl, ⟨?_, ?_, ?_, ?_⟩, e, ?_⟩
  · simpa [g12.surfs] using ho.obj
  · rw [e]; exact l2'
  · rw [e]; exact lt_of_lt_of_le ho.kvU g12.vecs_le
  · rw [e]; exact lt_of_lt_of_le ho.kvV g12.vecs_le
  · rw [Mem.surface, e]
    show (⟨(m.surfObj o).degreeU, (m.surfObj o).degreeV, (m.surfObj o).numU, (m.surfObj o).numV, m2.mat r,
      m2.vec (m.surfObj o).kvU, m2.vec (m.surfObj o).kvV⟩ : Surface K) = _
    rw [v2, g12.vec ho.kvU, g12.vec ho.kvV]
    rfl

theorem fitSurfaceMem_sim (env : FitEnv K) {o : Ref} (D T B : Ref) (ho : LiveSurf m o) :
    Sim (Unwritten m) (fitSurfaceMem env o D T B m)
      (fitSurface env (m.surface o) (m.mat D) (m.mat T) (m.mat B)) fun t m' c =>
        Unwritten m m' ∧ t = m.surfs.length ∧ LiveSurf m' t ∧ m'.surface t = c ∧
        m.mats.length ≤ (m'.surfObj t).ctrl ∧ (m'.surfObj t).kvU = (m.surfObj o).kvU ∧
        (m'.surfObj t).kvV = (m.surfObj o).kvV := by
  unfold fitSurfaceMem fitSurface
  refine Sim.step (a := m.surfObj o) rfl ?_
  refine Sim.step (a := m.surfs.length) rfl ?_
  set m1 : Mem K := { m with surfs := m.surfs ++ [m.surfObj o] } with hm1
  have e : m1.surfObj m.surfs.length = m.surfObj o := by
    simp [hm1, Mem.surfObj, List.getD_eq_getElem?_getD]
  have ev : m1.surface m.surfs.length = m.surface o := by
    rw [Mem.surface, e]; rfl
  have hl : LiveSurf m1 m.surfs.length :=
    ⟨by simp [hm1], by rw [e]; exact ho.ctrl, by rw [e]; exact ho.kvU, by rw [e]; exact ho.kvV⟩
  have k1 : Unwritten m m1 :=
    ⟨List.prefix_rfl, List.prefix_rfl, List.prefix_rfl, List.prefix_append _ _⟩
  refine Sim.step (a := m.surface o) (m' := m1) (by rw [← ev]; rfl) ?_
  refine Sim.step (a := m.mat D) (m' := m1) rfl ?_
  refine Sim.lift k1 fun param _ => ?_
  refine Sim.step (a := m.mat T) (m' := m1) rfl ?_
  refine Sim.step (a := m.mat B) (m' := m1) rfl ?_
  dsimp only
  split
  · exact Sim.error k1
  obtain ⟨m2, e2, g2, l2, v2⟩ := mnew_grown m1 (npSortRows [3, 4, 0, 1, 2] param)
  refine Sim.step e2 ?_
  have hl2 : LiveSurf m2 m.surfs.length := by
    refine ⟨by rw [g2.surfs]; exact hl.obj, ?_, ?_, ?_⟩ <;> rw [g2.surfObj]
    · exact lt_of_lt_of_le hl.ctrl g2.mats_le
    · exact lt_of_lt_of_le hl.kvU g2.vecs_le
    · exact lt_of_lt_of_le hl.kvV g2.vecs_le
  have ev2 : m2.surface m.surfs.length = m.surface o := by
    rw [← ev, Mem.surface, g2.surfObj, g2.mat hl.ctrl, g2.vec hl.kvU, g2.vec hl.kvV, Mem.surface]
  have hs := singleFitSurfaceMem_sim env.lstsq hl2 l2
  rw [ev2, v2] at hs
  rw [← bind_pure (singleFitSurface env.lstsq (m.surface o) (npSortRows [3, 4, 0, 1, 2] param))]
  refine Sim.bind (hs.mono (fun _ h => k1.trans (g2.trans h).unwritten) fun _ _ _ _ h => h) ?_
  rintro - m3 c ⟨m4, r, g4, hr, hr', rfl, l3, o3, v3⟩
  have g24 := g2.trans g4
  refine Sim.ok ⟨?_, rfl, l3, v3, ?_, ?_, ?_⟩
  · refine ⟨g24.unwritten.vecs, g24.unwritten.mats, g24.unwritten.curves, ?_⟩
    show m.surfs <+: m4.surfs.set _ _
    rw [g24.surfs]
    simp [hm1]
  · rw [o3]; exact le_trans g2.mats_le hr
  · rw [o3, g2.surfObj, e]
  · rw [o3, g2.surfObj, e]

end

end PySpline
