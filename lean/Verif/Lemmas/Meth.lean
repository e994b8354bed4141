import Verif.Model.Data

/-!
# Rules for methods with effects
-/

set_option linter.unusedSectionVars false

namespace PySpline.Meth

variable {σ τ α β : Type}

theorem lift_ok_bind (a : α) (f : α → Meth σ β) (s : σ) :
    ((lift (.ok a) : Meth σ α) >>= f) s = f a s := rfl

theorem lift_error_bind (e : Err) (f : α → Meth σ β) (s : σ) :
    ((lift (.error e) : Meth σ α) >>= f) s = (.error e, s) := rfl

theorem read_bind (g : σ → α) (f : α → Meth σ β) (s : σ) : ((read g) >>= f) s = f (g s) s := rfl

theorem assign_bind (g : σ → σ) (f : Unit → Meth σ β) (s : σ) :
    ((assign g) >>= f) s = f () (g s) := rfl

theorem raise_apply (e : Err) (s : σ) : (raise e : Meth σ α) s = (.error e, s) := rfl

theorem bind_apply (m : Meth σ α) (f : α → Meth σ β) (s : σ) :
    (m >>= f) s = match m s with
      | (.ok a, s') => f a s'
      | (.error e, s') => (.error e, s') := rfl

theorem bind_ok {m : Meth σ α} {s s' : σ} {a : α} (h : m s = (.ok a, s')) (f : α → Meth σ β) :
    (m >>= f) s = f a s' := by rw [bind_apply, h]

theorem bind_error {m : Meth σ α} {s s' : σ} {e : Err} (h : m s = (.error e, s'))
    (f : α → Meth σ β) : (m >>= f) s = (.error e, s') := by rw [bind_apply, h]

/-- Every run of `m`, successful or not, keeps `I`. -/
def Keeps (I : σ → Prop) (m : Meth σ α) : Prop := ∀ s, I s → I (m s).2

theorem Keeps.bind {I : σ → Prop} {m : Meth σ α} {f : α → Meth σ β} (hm : Keeps I m)
    (hf : ∀ a, Keeps I (f a)) : Keeps I (m >>= f) := by
  intro s hs
  have h1 := hm s hs
  rw [bind_apply]
  cases hr : m s with
  | mk r s' =>
    rw [hr] at h1
    cases r with
    | ok a => exact hf a s' h1
    | error e => exact h1

theorem Keeps.lift {I : σ → Prop} (x : Py α) : Keeps I (Meth.lift x : Meth σ α) := fun _ h => h
theorem Keeps.raise {I : σ → Prop} (e : Err) : Keeps I (Meth.raise e : Meth σ α) := fun _ h => h
theorem Keeps.read {I : σ → Prop} (g : σ → α) : Keeps I (Meth.read g) := fun _ h => h
theorem Keeps.pure {I : σ → Prop} (a : α) : Keeps I (Meth.pure a : Meth σ α) := fun _ h => h
theorem Keeps.assign {I : σ → Prop} {g : σ → σ} (h : ∀ s, I s → I (g s)) :
    Keeps I (Meth.assign g) := h

/-- A computation followed by a use of its result, which may rely on where the result came from. -/
theorem Keeps.lift_bind {I : σ → Prop} {x : Py α} {f : α → Meth σ β}
    (h : ∀ a, x = .ok a → Keeps I (f a)) : Keeps I (Meth.lift x >>= f) := by
  cases x with
  | ok a => exact fun s hs => h a rfl s hs
  | error e => exact fun s hs => hs

/-- `m` raises in every state and leaves the state as it is. -/
def Refuses (m : Meth σ α) : Prop := ∀ s, ∃ e, m s = (.error e, s)

/-- If `m` raises, it has not changed the state. -/
def Atomic (m : Meth σ α) : Prop := ∀ s e, (m s).1 = .error e → (m s).2 = s

theorem Atomic.lift_bind {x : Py α} {f : α → Meth σ β} (h : ∀ a, x = .ok a → Atomic (f a)) :
    Atomic (Meth.lift x >>= f) := by
  cases x with
  | ok a => exact fun s hs => h a rfl s hs
  | error e => exact fun s _ _ => rfl

theorem Atomic.raise (e : Err) : Atomic (Meth.raise e : Meth σ α) := fun _ _ _ => rfl

theorem Atomic.assign (g : σ → σ) : Atomic (Meth.assign g) := fun s e h => by
  unfold Meth.assign at h
  cases h

end PySpline.Meth
