import Verif.SpecMemory

/-!
# Rules for calls that work on the memory

`Sim F x y Q`: the outcome `x` of a call on the memory follows the outcome `y` of the value model.
-/

namespace PySpline

section
variable {K : Type}

namespace Sim
variable {α β γ δ ι σ τ : Type} {F : Mem K → Prop}

theorem bind {x : Eff K α} {m : Mem K} {y : Py β} {f : α → Eff K γ} {k : β → Py δ}
    {Q : α → Mem K → β → Prop} {Q' : γ → Mem K → δ → Prop} (h : Sim F (x m) y Q)
    (hf : ∀ a m' b, Q a m' b → Sim F (f a m') (k b) Q') :
    Sim F ((x >>= f) m) (y >>= k) Q' := by
  cases y with
  | ok b =>
    obtain ⟨a, m', hx, hq⟩ := h
    have e : (x >>= f) m = f a m' := by
      show (match x m with | (.ok a, m') => f a m' | (.error e, m') => (.error e, m')) = _
      rw [hx]
    rw [e]
    exact hf a m' b hq
  | error e =>
    obtain ⟨m', hx, hq⟩ := h
    refine ⟨m', ?_, hq⟩
    show (match x m with | (.ok a, m') => f a m' | (.error e, m') => (.error e, m')) = _
    rw [hx]

/-- A step that only the call on the memory makes. -/
theorem step {x : Eff K α} {m m' : Mem K} {a : α} {y : Py δ} {f : α → Eff K γ}
    {Q' : γ → Mem K → δ → Prop} (hx : x m = (.ok a, m')) (h : Sim F (f a m') y Q') :
    Sim F ((x >>= f) m) y Q' := by
  have e : (x >>= f) m = f a m' := by
    show (match x m with | (.ok a, m') => f a m' | (.error e, m') => (.error e, m')) = _
    rw [hx]
  rw [e]
  exact h

theorem lift {m : Mem K} {y : Py β} {f : β → Eff K γ} {k : β → Py δ}
    {Q' : γ → Mem K → δ → Prop} (hF : F m) (hf : ∀ b, y = .ok b → Sim F (f b m) (k b) Q') :
    Sim F ((liftPy y >>= f) m) (y >>= k) Q' := by
  cases y with
  | ok b => exact hf b rfl
  | error e => exact ⟨m, rfl, hF⟩

theorem ok {m : Mem K} {a : α} {b : β} {Q : α → Mem K → β → Prop} (h : Q a m b) :
    Sim F ((pure a : Eff K α) m) (.ok b) Q := ⟨a, m, rfl, h⟩

theorem error {m : Mem K} {e : Err} {Q : α → Mem K → β → Prop} (h : F m) :
    Sim F ((liftPy (.error e) : Eff K α) m) (.error e) Q := ⟨m, rfl, h⟩

theorem mono {x : Py α × Mem K} {y : Py β} {F' : Mem K → Prop} {Q Q' : α → Mem K → β → Prop}
    (h : Sim F x y Q) (hF : ∀ m, F m → F' m) (hQ : ∀ a m b, y = .ok b → Q a m b → Q' a m b) :
    Sim F' x y Q' := by
  cases y with
  | ok b =>
    obtain ⟨a, m', hx, hq⟩ := h
    exact ⟨a, m', hx, hQ _ _ _ rfl hq⟩
  | error e =>
    obtain ⟨m', hx, hq⟩ := h
    exact ⟨m', hx, hF _ hq⟩

theorem loop {f : ι → σ → Eff K σ} {g : ι → τ → Py τ} (Inv : σ → Mem K → τ → Prop)
    (hstep : ∀ i s m t, Inv s m t → Sim F (f i s m) (g i t) Inv) :
    ∀ (l : List ι) (s : σ) (m : Mem K) (t : τ), Inv s m t →
      Sim F (loopMem f l s m) (l.foldlM (fun t i => g i t) t) Inv
  | [], s, m, t, h => ⟨s, m, rfl, h⟩
  | i :: l, s, m, t, h => by
    rw [List.foldlM_cons]
    exact bind (hstep i s m t h) fun s' m' t' h' => loop Inv hstep l s' m' t' h'

end Sim

/-! ## Local arrays -/

/-- The memory with further arrays. -/
def Mem.loc (m : Mem K) (v : List (List K)) (a : List (List (List K))) : Mem K :=
  { m with vecs := m.vecs ++ v, mats := m.mats ++ a }

/-- The memory has grown by arrays. -/
def Grown (m m' : Mem K) : Prop := ∃ v a, m' = m.loc v a

theorem Grown.loc (m : Mem K) (v : List (List K)) (a : List (List (List K))) :
    Grown m (m.loc v a) := ⟨v, a, rfl⟩

theorem Mem.loc_nil (m : Mem K) : m.loc [] [] = m := by simp [Mem.loc]

theorem Grown.refl (m : Mem K) : Grown m m := ⟨[], [], m.loc_nil.symm⟩

theorem Mem.loc_loc (m : Mem K) (v v' : List (List K)) (a a' : List (List (List K))) :
    (m.loc v a).loc v' a' = m.loc (v ++ v') (a ++ a') := by simp [Mem.loc]

theorem Grown.trans {m m' m'' : Mem K} (h : Grown m m') (h' : Grown m' m'') : Grown m m'' := by
  obtain ⟨v, a, rfl⟩ := h
  obtain ⟨v', a', rfl⟩ := h'
  exact ⟨v ++ v', a ++ a', m.loc_loc _ _ _ _⟩

variable (m : Mem K) (v : List (List K)) (a : List (List (List K)))

theorem Mem.loc_vec {r : Ref} (h : r < m.vecs.length) : (m.loc v a).vec r = m.vec r := by
  simp [Mem.loc, Mem.vec, List.getD_eq_getElem?_getD, List.getElem?_append_left h]

theorem Mem.loc_mat {r : Ref} (h : r < m.mats.length) : (m.loc v a).mat r = m.mat r := by
  simp [Mem.loc, Mem.mat, List.getD_eq_getElem?_getD, List.getElem?_append_left h]

theorem Mem.loc_vec_new (i : ℕ) : (m.loc v a).vec (m.vecs.length + i) = v.getD i [] := by
  simp [Mem.loc, Mem.vec, List.getD_eq_getElem?_getD, List.getElem?_append_right]

theorem Mem.loc_mat_new (i : ℕ) : (m.loc v a).mat (m.mats.length + i) = a.getD i [] := by
  simp [Mem.loc, Mem.mat, List.getD_eq_getElem?_getD, List.getElem?_append_right]

theorem vread_old {r : Ref} (h : r < m.vecs.length) :
    (vread r : Eff K _) (m.loc v a) = (.ok (m.vec r), m.loc v a) := by
  unfold vread; rw [m.loc_vec v a h]

theorem mread_old {r : Ref} (h : r < m.mats.length) :
    (mread r : Eff K _) (m.loc v a) = (.ok (m.mat r), m.loc v a) := by
  unfold mread; rw [m.loc_mat v a h]

theorem vread_loc (i : ℕ) :
    (vread (m.vecs.length + i) : Eff K _) (m.loc v a) = (.ok (v.getD i []), m.loc v a) := by
  unfold vread; rw [m.loc_vec_new v a]

theorem mread_loc (i : ℕ) :
    (mread (m.mats.length + i) : Eff K _) (m.loc v a) = (.ok (a.getD i []), m.loc v a) := by
  unfold mread; rw [m.loc_mat_new v a]

theorem vwrite_loc (i : ℕ) (l : List K) :
    (vwrite (m.vecs.length + i) l : Eff K _) (m.loc v a) = (.ok (), m.loc (v.set i l) a) := by
  simp [vwrite, Mem.loc, List.set_append_right]

theorem mwrite_loc (i : ℕ) (l : List (List K)) :
    (mwrite (m.mats.length + i) l : Eff K _) (m.loc v a) = (.ok (), m.loc v (a.set i l)) := by
  simp [mwrite, Mem.loc, List.set_append_right]

theorem vnew_loc (l : List K) :
    (vnew l : Eff K _) (m.loc v a) = (.ok (m.vecs.length + v.length), m.loc (v ++ [l]) a) := by
  simp [vnew, Mem.loc]

theorem mnew_loc (l : List (List K)) :
    (mnew l : Eff K _) (m.loc v a) = (.ok (m.mats.length + a.length), m.loc v (a ++ [l])) := by
  simp [mnew, Mem.loc]

theorem vset_loc (i : ℕ) (j : ℤ) (x : K) :
    Sim (Grown m) ((vset (m.vecs.length + i) j x : Eff K _) (m.loc v a))
      (pySet (v.getD i []) j x) fun _ m' l => m' = m.loc (v.set i l) a := by
  unfold vset
  refine Sim.step (vread_loc m v a i) ?_
  cases h : pySet (v.getD i []) j x with
  | error e => exact ⟨_, rfl, Grown.loc _ _ _⟩
  | ok l => exact ⟨(), _, vwrite_loc m v a i l, rfl⟩

end

section
variable {K : Type} [Field K] [LinearOrder K]
variable (m : Mem K) (v : List (List K)) (a : List (List (List K)))

omit [LinearOrder K] in
theorem msetRow_loc (i : ℕ) (j : ℤ) (x : List K) :
    Sim (Grown m) ((msetRow (m.mats.length + i) j x : Eff K _) (m.loc v a))
      (assignRow (a.getD i []) j x) fun _ m' l => m' = m.loc v (a.set i l) := by
  unfold msetRow
  refine Sim.step (mread_loc m v a i) ?_
  cases h : assignRow (a.getD i []) j x with
  | error e => exact ⟨_, rfl, Grown.loc _ _ _⟩
  | ok l => exact ⟨(), _, mwrite_loc m v a i l, rfl⟩

omit [Field K] [LinearOrder K] in
theorem msetCol_loc (i : ℕ) (j : ℤ) (x : List K) :
    Sim (Grown m) ((msetCol (m.mats.length + i) j x : Eff K _) (m.loc v a))
      (setColumn (a.getD i []) j x) fun _ m' l => m' = m.loc v (a.set i l) := by
  unfold msetCol
  refine Sim.step (mread_loc m v a i) ?_
  cases h : setColumn (a.getD i []) j x with
  | error e => exact ⟨_, rfl, Grown.loc _ _ _⟩
  | ok l => exact ⟨(), _, mwrite_loc m v a i l, rfl⟩

/-! ## The functions on knots -/

theorem normalizeMem_sim (U : Ref) :
    Sim (Grown m) (normalizeMem U m) (normalize (m.vec U)) fun r m' l =>
      r = m.vecs.length ∧ m' = m.loc [l] [] := by
  unfold normalizeMem normalize
  refine Sim.step (a := m.vec U) rfl ?_
  refine Sim.lift (Grown.refl m) fun mx _ => ?_
  refine Sim.lift (Grown.refl m) fun mn _ => ?_
  dsimp only
  have e := vnew_loc m [] [] ((m.vec U).map fun x => x - mn * 1)
  rw [m.loc_nil] at e
  refine Sim.step e ?_
  refine Sim.lift (Grown.loc _ _ _) fun f _ => ?_
  refine Sim.step (vread_loc m _ _ 0) ?_
  refine Sim.step (vwrite_loc m _ _ 0 _) ?_
  exact Sim.ok ⟨rfl, rfl⟩

theorem curveKnotInsertionMem_sim (p : ℕ) {U P : Ref} (hU : U < m.vecs.length)
    (hP : P < m.mats.length) (u : K) (r : ℕ) :
    Sim (Grown m) (curveKnotInsertionMem p U P u r m) (curveKnotInsertion p (m.vec U) (m.mat P) u r)
      fun a m' b => a = (m.vecs.length, m.mats.length) ∧ ∃ R, m' = m.loc [b.1] [b.2, R] := by
  unfold curveKnotInsertionMem curveKnotInsertion forZ
  refine Sim.step (a := m.vec U) rfl ?_
  refine Sim.step (a := m.mat P) rfl ?_
  refine Sim.lift (Grown.refl m) fun k _ => ?_
  dsimp only
  have e := vnew_loc m [] [] (zeros ((m.vec U).length + r))
  rw [m.loc_nil] at e
  refine Sim.step e ?_
  refine Sim.step (mnew_loc m _ _ _) ?_
  refine Sim.step (mnew_loc m _ _ _) ?_
  simp only [List.nil_append, List.singleton_append, List.length_nil, List.length_singleton]
  -- the knots
  refine Sim.bind (Sim.loop (fun _ m' kv => m' = m.loc [kv] _) ?_ _ _ _ _ rfl) ?_
  · rintro i - m' kv rfl
    refine Sim.step (vread_old m _ _ hU) ?_
    refine Sim.lift (Grown.loc _ _ _) fun x _ => ?_
    exact (vset_loc m _ _ 0 i x)
  rintro - m' kv rfl
  refine Sim.bind (Sim.loop (fun _ m' kv => m' = m.loc [kv] _) ?_ _ _ _ _ rfl) ?_
  · rintro i - m' kv rfl
    exact (vset_loc m _ _ 0 _ u)
  rintro - m' kv rfl
  refine Sim.bind (Sim.loop (fun _ m' kv => m' = m.loc [kv] _) ?_ _ _ _ _ rfl) ?_
  · rintro i - m' kv rfl
    refine Sim.step (vread_old m _ _ hU) ?_
    refine Sim.lift (Grown.loc _ _ _) fun x _ => ?_
    exact (vset_loc m _ _ 0 _ x)
  rintro - m' kv rfl
  -- the control points
  refine Sim.bind (Sim.loop (fun _ m' A => m' = m.loc [kv] [A, zeros2 (p + 1) 3]) ?_ _ _ _ _ rfl) ?_
  · rintro i - m' A rfl
    refine Sim.step (mread_old m _ _ hP) ?_
    refine Sim.lift (Grown.loc _ _ _) fun x _ => ?_
    exact (msetRow_loc m _ _ 0 _ x)
  rintro - m' A rfl
  refine Sim.bind (Sim.loop (fun _ m' A => m' = m.loc [kv] [A, zeros2 (p + 1) 3]) ?_ _ _ _ _ rfl) ?_
  · rintro i - m' A rfl
    refine Sim.step (mread_old m _ _ hP) ?_
    refine Sim.lift (Grown.loc _ _ _) fun x _ => ?_
    exact (msetRow_loc m _ _ 0 _ x)
  rintro - m' A rfl
  refine Sim.bind (Sim.loop (fun _ m' R => m' = m.loc [kv] [A, R]) ?_ _ _ _ _ rfl) ?_
  · rintro i - m' R rfl
    refine Sim.step (mread_old m _ _ hP) ?_
    refine Sim.lift (Grown.loc _ _ _) fun x _ => ?_
    exact (msetRow_loc m _ _ 1 _ x)
  rintro - m' R rfl
  refine Sim.bind (Sim.loop (fun _ m' (AR : List (List K) × List (List K)) =>
    m' = m.loc [kv] [AR.1, AR.2]) ?_ _ _ _ _ rfl) ?_
  · rintro j - m' ⟨A, R⟩ rfl
    dsimp only
    refine Sim.bind (Sim.loop (fun _ m' R => m' = m.loc [kv] [A, R]) ?_ _ _ _ _ rfl) ?_
    · rintro i - m' R rfl
      refine Sim.step (vread_old m _ _ hU) ?_
      refine Sim.lift (Grown.loc _ _ _) fun x _ => ?_
      refine Sim.lift (Grown.loc _ _ _) fun y _ => ?_
      refine Sim.lift (Grown.loc _ _ _) fun al _ => ?_
      refine Sim.step (mread_loc m _ _ 1) ?_
      refine Sim.lift (Grown.loc _ _ _) fun x _ => ?_
      refine Sim.lift (Grown.loc _ _ _) fun y _ => ?_
      exact (msetRow_loc m _ _ 1 _ _)
    rintro - m' R rfl
    refine Sim.step (mread_loc m _ _ 1) ?_
    refine Sim.lift (Grown.loc _ _ _) fun x _ => ?_
    refine Sim.bind (msetRow_loc m _ _ 0 _ _) ?_
    rintro - m' A rfl
    refine Sim.step (mread_loc m _ _ 1) ?_
    refine Sim.lift (Grown.loc _ _ _) fun x _ => ?_
    have h := msetRow_loc m [kv] [A, R] 0 (k + r - j - (findMultiplicity u (m.vec U) : ℤ)) x
    have h2 : ([A, R] : List (List (List K))).getD 0 [] = A := rfl
    rw [h2] at h
    cases hy : assignRow A (k + r - j - (findMultiplicity u (m.vec U) : ℤ)) x with
    | error e =>
      rw [hy] at h
      exact h
    | ok A' =>
      rw [hy] at h
      obtain ⟨b, m', h3, rfl⟩ := h
      exact ⟨b, _, h3, rfl⟩
  rintro - m' ⟨A, R⟩ rfl
  dsimp only
  refine Sim.bind (Sim.loop (fun _ m' A => m' = m.loc [kv] [A, R]) ?_ _ _ _ _ rfl) ?_
  · rintro i - m' A rfl
    refine Sim.step (mread_loc m _ _ 1) ?_
    refine Sim.lift (Grown.loc _ _ _) fun x _ => ?_
    exact (msetRow_loc m _ _ 0 _ x)
  rintro - m' A rfl
  exact Sim.ok ⟨rfl, R, rfl⟩

end

end PySpline
