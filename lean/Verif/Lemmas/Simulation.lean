import Verif.Py

/-!
# Two runs side by side

`Alike R x y`: two modelled calls end alike, with results related by `R` or with the same error.
-/

set_option linter.unusedSectionVars false

namespace PySpline

/-- Both calls return, with related results, or both end in the same error. -/
def Alike {α β : Type} (R : α → β → Prop) : Py α → Py β → Prop
  | .ok a, .ok b => R a b
  | .error e, .error f => e = f
  | _, _ => False

namespace Alike
variable {α β γ δ σ τ : Type}

theorem ok {R : α → β → Prop} {a : α} {b : β} (h : R a b) : Alike R (.ok a) (.ok b) := h

theorem error {R : α → β → Prop} (e : Err) : Alike R (.error e) (.error e) := rfl

theorem mono {R S : α → β → Prop} {x : Py α} {y : Py β} (h : Alike R x y) (hRS : ∀ a b, R a b → S a b) :
    Alike S x y := by
  cases x <;> cases y <;> first | exact h | exact hRS _ _ h

theorem bind {R : α → β → Prop} {S : γ → δ → Prop} {x : Py α} {y : Py β} {f : α → Py γ} {g : β → Py δ}
    (h : Alike R x y) (hf : ∀ a b, R a b → Alike S (f a) (g b)) : Alike S (x >>= f) (y >>= g) := by
  rcases x with e | a <;> rcases y with e' | b
  · exact h
  · exact h.elim
  · exact h.elim
  · exact hf a b h

theorem refl (x : Py α) : Alike Eq x x := by
  rcases x with e | a <;> rfl

theorem eq {x y : Py α} (h : Alike Eq x y) : x = y := by
  rcases x with e | a <;> rcases y with e' | b
  · exact congrArg _ h
  · exact h.elim
  · exact h.elim
  · exact congrArg _ h

theorem of_eq {R : α → α → Prop} {x y : Py α} (h : x = y) (hR : ∀ a, R a a) : Alike R x y := by
  subst h
  rcases x with e | a
  · rfl
  · exact hR a

theorem ite {R : α → β → Prop} {p q : Prop} [Decidable p] [Decidable q] {x x' : Py α} {y y' : Py β} (hpq : p ↔ q)
    (h1 : p → Alike R x y) (h2 : ¬ p → Alike R x' y') :
    Alike R (if p then x else x') (if q then y else y') := by
  by_cases h : p
  · rw [if_pos h, if_pos (hpq.1 h)]
    exact h1 h
  · rw [if_neg h, if_neg fun hq => h (hpq.2 hq)]
    exact h2 h

private theorem foldlM_range' (f : ℕ → σ → Py σ) (g : ℕ → τ → Py τ) (R : ℕ → σ → τ → Prop) (n : ℕ) :
    ∀ (a : ℕ) (s : σ) (t : τ), R a s t →
      (∀ i s t, a ≤ i → i < a + n → R i s t → Alike (R (i + 1)) (f i s) (g i t)) →
      Alike (R (a + n)) ((List.range' a n).foldlM (fun s i => f i s) s)
        ((List.range' a n).foldlM (fun s i => g i s) t) := by
  induction n with
  | zero => intro a s t h _; exact h
  | succ n ih =>
    intro a s t h hs
    rw [List.range'_succ, List.foldlM_cons, List.foldlM_cons]
    refine Alike.bind (hs a s t le_rfl (by omega) h) fun s' t' h' => ?_
    have := ih (a + 1) s' t' h' fun i s t h1 h2 => hs i s t (by omega) (by omega)
    rwa [Nat.add_right_comm] at this

/-- Two `range` loops with the same bounds. -/
theorem forN {a b : ℕ} {s : σ} {t : τ} {f : ℕ → σ → Py σ} {g : ℕ → τ → Py τ} (R : ℕ → σ → τ → Prop) (hab : a ≤ b)
    (h0 : R a s t)
    (hstep : ∀ i s t, a ≤ i → i < b → R i s t → Alike (R (i + 1)) (f i s) (g i t)) :
    Alike (R b) (PySpline.forN a b s f) (PySpline.forN a b t g) := by
  have h := foldlM_range' f g R (b - a) a s t h0 fun i s t h1 h2 => hstep i s t h1 (by omega)
  rwa [show a + (b - a) = b by omega] at h

end Alike

/-- Two arrays of the same length whose entries are related, position by position. -/
def Along {α β : Type} (R : ℕ → α → β → Prop) (l : List α) (l' : List β) : Prop :=
  l'.length = l.length ∧ ∀ k x y, l[k]? = some x → l'[k]? = some y → R k x y

namespace Along
variable {α β : Type} {R S : ℕ → α → β → Prop} {l : List α} {l' : List β}

theorem mono (h : Along R l l') (hRS : ∀ k x y, R k x y → S k x y) : Along S l l' :=
  ⟨h.1, fun k x y hx hy => hRS k x y (h.2 k x y hx hy)⟩

theorem map (f : α → β) (l : List α) : Along (fun _ x y => y = f x) l (l.map f) := by
  refine ⟨by simp, fun k x y hx hy => ?_⟩
  rw [List.getElem?_map, hx] at hy
  exact (Option.some.inj hy).symm

theorem replicate (n : ℕ) (a : α) (b : β) (h : ∀ k, R k a b) :
    Along R (List.replicate n a) (List.replicate n b) := by
  refine ⟨by simp, fun k x y hx hy => ?_⟩
  rw [List.getElem?_replicate] at hx hy
  split_ifs at hx hy
  rw [← Option.some.inj hx, ← Option.some.inj hy]
  exact h k

/-- Reading both arrays at one index. -/
theorem get (h : Along R l l') (i : ℤ) :
    Alike (fun x y => ∃ k : ℕ, pyIdx l.length i = .ok k ∧ R k x y) (pyGet l i) (pyGet l' i) := by
  unfold pyGet
  rw [h.1]
  rcases e : pyIdx l.length i with e | k
  · exact rfl
  · rw [ok_bind, ok_bind]
    rcases hx : l[k]? with _ | x
    · have : l'[k]? = none := by
        rw [List.getElem?_eq_none_iff] at hx ⊢
        rw [h.1]; exact hx
      rw [this]
      exact rfl
    · have hk := (List.getElem?_eq_some_iff.1 hx).1
      rw [List.getElem?_eq_getElem (show k < l'.length by rw [h.1]; exact hk)]
      exact ⟨k, rfl, h.2 k x _ hx (List.getElem?_eq_getElem _)⟩

/-- Reading both arrays at a natural index. -/
theorem get_nat (h : Along R l l') (i : ℤ) (k : ℕ) (hk : i = k) :
    Alike (fun x y => R k x y) (pyGet l i) (pyGet l' i) := by
  refine (h.get i).mono fun x y ⟨m, hm, hR⟩ => ?_
  subst hk
  unfold pyIdx at hm
  split_ifs at hm with h1 h2
  · have := Except.ok.inj hm
    rw [Int.toNat_natCast] at this
    rw [this]; exact hR
  · omega

/-- Writing into both arrays at one index. -/
theorem set (h : Along R l l') (i : ℤ) {v : α} {w : β} (hS : ∀ k x y, R k x y → S k x y)
    (hv : ∀ k, pyIdx l.length i = .ok k → S k v w) : Alike (Along S) (pySet l i v) (pySet l' i w) := by
  unfold pySet
  rw [h.1]
  rcases e : pyIdx l.length i with e | k
  · exact rfl
  · refine ⟨by simp [h.1], fun m x y hx hy => ?_⟩
    rw [List.getElem?_set] at hx hy
    by_cases hm : k = m
    · subst hm
      rw [if_pos rfl] at hx hy
      split_ifs at hx hy
      rw [← Option.some.inj hx, ← Option.some.inj hy]
      exact hv k e
    · rw [if_neg hm] at hx hy
      exact hS m x y (h.2 m x y hx hy)

/-- Writing into both arrays at a natural index; the relation may change at that position. -/
theorem set_nat (h : Along R l l') (i : ℤ) (k : ℕ) (hk : i = k) {v : α} {w : β}
    (hS : ∀ m x y, m ≠ k → R m x y → S m x y) (hv : S k v w) :
    Alike (Along S) (pySet l i v) (pySet l' i w) := by
  unfold pySet
  rw [h.1]
  subst hk
  rcases e : pyIdx l.length (k : ℤ) with e | m
  · exact rfl
  · have hm : m = k := by
      unfold pyIdx at e
      split_ifs at e with h1 h2
      · have := Except.ok.inj e
        rw [Int.toNat_natCast] at this
        exact this.symm
      · omega
    subst hm
    refine ⟨by simp [h.1], fun j x y hx hy => ?_⟩
    rw [List.getElem?_set] at hx hy
    by_cases hj : m = j
    · subst hj
      rw [if_pos rfl] at hx hy
      split_ifs at hx hy
      rw [← Option.some.inj hx, ← Option.some.inj hy]
      exact hv
    · rw [if_neg hj] at hx hy
      exact hS j x y (Ne.symm hj) (h.2 j x y hx hy)

end Along

section
variable {K : Type} [Field K] [LinearOrder K]

/-- Dividing two pairs of numbers, when the divisors vanish together. -/
theorem Alike.div {R : K → K → Prop} {x x' y y' : K} (h0 : y = 0 ↔ y' = 0) (h : y ≠ 0 → R (x / y) (x' / y')) :
    Alike R (pyDiv x y) (pyDiv x' y') :=
  Alike.ite h0 (fun _ => rfl) fun hy => h hy

end

end PySpline
