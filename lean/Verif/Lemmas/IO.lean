import Verif.Lemmas.Data
import Verif.Lemmas.Surface
import Mathlib.Tactic.FieldSimp

/-!
# Lemmas about files and lines
-/

set_option linter.unusedSectionVars false

namespace PySpline

/-- `m` succeeds and appends `t` to the file `name`, which is open for writing. -/
def Writes (name : String) (m : Meth FS Unit) (t : Text) : Prop :=
  ∀ (fs : FS) (c : Text), fs name = some c →
    m fs = (.ok (), fun n => if n = name then some (c ++ t) else fs n)

/-- `m` appends something to the file `name`, and may raise. -/
def Appends (name : String) (m : Meth FS Unit) : Prop :=
  ∀ (fs : FS) (c : Text), fs name = some c →
    ∃ t, (m fs).2 = fun n => if n = name then some (c ++ t) else fs n

theorem Writes.appends {name : String} {m : Meth FS Unit} {t : Text} (h : Writes name m t) :
    Appends name m := fun fs c hc => ⟨t, by rw [h fs c hc]⟩

theorem writes_emit (name : String) (t : Text) : Writes name (emit name t) t := by
  intro fs c h
  unfold emit
  rw [h]
  rfl

theorem writes_pure (name : String) : Writes name (Meth.pure ()) [] := by
  intro fs c h
  unfold Meth.pure
  refine Prod.ext rfl (funext fun n => ?_)
  dsimp only
  by_cases hn : n = name
  · rw [if_pos hn, hn, List.append_nil]; exact h
  · rw [if_neg hn]

theorem Writes.bind {name : String} {m : Meth FS Unit} {f : Unit → Meth FS Unit} {t t' : Text}
    (h : Writes name m t) (h' : Writes name (f ()) t') : Writes name (m >>= f) (t ++ t') := by
  intro fs c hc
  rw [Meth.bind_ok (h fs c hc), h' _ (c ++ t) (by simp)]
  refine Prod.ext rfl (funext fun n => ?_)
  dsimp only
  by_cases hn : n = name
  · rw [if_pos hn, if_pos hn, List.append_assoc]
  · rw [if_neg hn, if_neg hn, if_neg hn]

theorem Appends.after {name : String} {m : Meth FS Unit} {f : Unit → Meth FS Unit} {t : Text}
    (h : Writes name m t) (h' : Appends name (f ())) (fs : FS) (c : Text) (hc : fs name = some c) :
    ∃ t', ((m >>= f) fs).2 = fun n => if n = name then some (c ++ t ++ t') else fs n := by
  rw [Meth.bind_ok (h fs c hc)]
  obtain ⟨t', ht'⟩ := h' (fun n => if n = name then some (c ++ t) else fs n) (c ++ t) (if_pos rfl)
  refine ⟨t', ht'.trans (funext fun n => ?_)⟩
  by_cases hn : n = name
  · rw [if_pos hn, if_pos hn]
  · rw [if_neg hn, if_neg hn, if_neg hn]

theorem Appends.bind {name : String} {m : Meth FS Unit} {f : Unit → Meth FS Unit}
    (h : Appends name m) (h' : Appends name (f ())) : Appends name (m >>= f) := by
  intro fs c hc
  obtain ⟨t, ht⟩ := h fs c hc
  rw [Meth.bind_apply]
  cases hr : m fs with
  | mk r fs' =>
    rw [hr] at ht
    cases r with
    | error e => exact ⟨t, ht⟩
    | ok a =>
      obtain ⟨t', ht'⟩ := h' fs' (c ++ t) ((congrFun ht name).trans (if_pos rfl))
      refine ⟨t ++ t', ht'.trans (funext fun n => ?_)⟩
      by_cases hn : n = name
      · rw [if_pos hn, if_pos hn, List.append_assoc]
      · rw [if_neg hn, if_neg hn]
        have := congrFun ht n
        rwa [if_neg hn] at this

theorem writes_each {β : Type} {name : String} (l : List β) {body : β → Meth FS Unit}
    {f : β → Text} (h : ∀ x ∈ l, Writes name (body x) (f x)) :
    Writes name (Meth.each l body) (l.flatMap f) := by
  induction l with
  | nil => exact writes_pure name
  | cons x l ih =>
    rw [List.flatMap_cons]
    exact Writes.bind (h x (by simp)) (f := fun _ => Meth.each l body)
      (ih fun y hy => h y (by simp [hy]))

theorem appends_each {β : Type} {name : String} (l : List β) {body : β → Meth FS Unit}
    (h : ∀ x ∈ l, Appends name (body x)) : Appends name (Meth.each l body) := by
  induction l with
  | nil => exact (writes_pure name).appends
  | cons x l ih =>
    exact Appends.bind (h x (by simp)) (f := fun _ => Meth.each l body)
      (ih fun y hy => h y (by simp [hy]))

theorem appends_lift {α : Type} {name : String} (x : Py α) {f : α → Meth FS Unit}
    (h : ∀ a, Appends name (f a)) : Appends name (Meth.lift x >>= f) := by
  cases x with
  | ok a => exact h a
  | error e =>
    intro fs c hc
    refine ⟨[], funext fun n => ?_⟩
    show fs n = _
    by_cases hn : n = name
    · rw [if_pos hn, hn, hc, List.append_nil]
    · rw [if_neg hn]

/-- `m` appends `t` to the file `name` and continues with `k`. -/
def WritesThen (name : String) (m k : Meth FS Unit) (t : Text) : Prop :=
  ∀ (fs : FS) (c : Text), fs name = some c →
    m fs = k (fun n => if n = name then some (c ++ t) else fs n)

theorem writesThen_refl (name : String) (k : Meth FS Unit) : WritesThen name k k [] := by
  intro fs c hc
  refine congrArg k (funext fun n => ?_)
  by_cases hn : n = name
  · rw [if_pos hn, hn, hc, List.append_nil]
  · rw [if_neg hn]

theorem Writes.thenWrites {name : String} {m k : Meth FS Unit} {f : Unit → Meth FS Unit} {t t' : Text}
    (h : Writes name m t) (h' : WritesThen name (f ()) k t') :
    WritesThen name (m >>= f) k (t ++ t') := by
  intro fs c hc
  rw [Meth.bind_ok (h fs c hc), h' _ (c ++ t) (if_pos rfl)]
  refine congrArg k (funext fun n => ?_)
  by_cases hn : n = name
  · rw [if_pos hn, if_pos hn, List.append_assoc]
  · rw [if_neg hn, if_neg hn, if_neg hn]

theorem pyLines_nil : pyLines [] = [] := rfl

theorem universalNewlines_append {l : Text} (h : '\r' ∉ l) (rest : Text) :
    universalNewlines (l ++ rest) = l ++ universalNewlines rest := by
  induction l with
  | nil => rfl
  | cons c l ih =>
    simp only [List.mem_cons, not_or] at h
    rw [List.cons_append, universalNewlines, if_neg (Ne.symm h.1), ih h.2, List.cons_append]

theorem universalNewlines_self {l : Text} (h : '\r' ∉ l) : universalNewlines l = l := by
  have := universalNewlines_append h []
  rwa [List.append_nil, universalNewlines, List.append_nil] at this

/-- No character of the line ends a line. -/
def NoEol (l : Text) : Prop := ∀ ch, ch = '\n' ∨ ch = '\r' → ch ∉ l

theorem pyLines_cons {l : Text} (h' : NoEol l) (rest : Text) :
    pyLines (l ++ '\n' :: rest) = l :: pyLines rest := by
  have h := h' '\n' (.inl rfl)
  unfold pyLines
  rw [universalNewlines_append (h' '\r' (.inr rfl)),
    show universalNewlines ('\n' :: rest) = '\n' :: universalNewlines rest from if_neg (by decide)]
  rw [List.splitOn_append_cons_self_of_not_mem h]
  have hne := List.splitOn_ne_nil '\n' (universalNewlines rest)
  obtain ⟨a, ls, ha⟩ := List.exists_cons_of_ne_nil hne
  rw [ha]
  dsimp only
  rw [List.getLast?_cons_cons, List.dropLast_cons_cons]
  split <;> rfl

theorem pyLines_lines (ls : List Text) (h : ∀ l ∈ ls, NoEol l) (rest : Text) :
    pyLines (ls.flatMap (· ++ ['\n']) ++ rest) = ls ++ pyLines rest := by
  induction ls with
  | nil => rfl
  | cons l ls ih =>
    rw [List.flatMap_cons, List.append_assoc, List.append_assoc]
    show pyLines (l ++ '\n' :: (ls.flatMap (· ++ ['\n']) ++ rest)) = _
    rw [pyLines_cons (h l (by simp)), ih fun l' hl' => h l' (by simp [hl'])]
    rfl

theorem splitOn_tabs (ls : List Text) (h : ∀ l ∈ ls, '\t' ∉ l) :
    (ls.flatMap (· ++ ['\t'])).splitOn '\t' = ls ++ [[]] := by
  induction ls with
  | nil => rfl
  | cons l ls ih =>
    rw [List.flatMap_cons, List.append_assoc]
    show (l ++ '\t' :: ls.flatMap (· ++ ['\t'])).splitOn '\t' = _
    rw [List.splitOn_append_cons_self_of_not_mem (h l (by simp)), ih fun l' hl' => h l' (by simp [hl'])]
    rfl

theorem mapPy_append_error {α β : Type} {f : α → Py β} {g : α → β} {l : List α} {x : α} {e : Err}
    (h : ∀ y ∈ l, f y = .ok (g y)) (hx : f x = .error e) : mapPy f (l ++ [x]) = .error e := by
  induction l with
  | nil => show (f x >>= _) = _; rw [hx]; rfl
  | cons y l ih =>
    show (f y >>= _) = _
    rw [h y (by simp), ok_bind]
    show (mapPy f (l ++ [x]) >>= _) = _
    rw [ih fun z hz => h z (by simp [hz])]
    rfl

theorem pyWords_three {a b c : Text} (ha : ∀ x ∈ a, pySpace x = false)
    (hb : ∀ x ∈ b, pySpace x = false) (hc : ∀ x ∈ c, pySpace x = false) (ha' : a ≠ [])
    (hb' : b ≠ []) (hc' : c ≠ []) :
    pyWords (a ++ ['\t', ' '] ++ b ++ ['\t', ' '] ++ c) = [a, b, c] := by
  unfold pyWords
  rw [show a ++ ['\t', ' '] ++ b ++ ['\t', ' '] ++ c
      = a ++ '\t' :: ([] ++ ' ' :: (b ++ '\t' :: ([] ++ ' ' :: c))) by simp,
    List.splitOnP_append_cons_of_forall_mem ha _ rfl,
    List.splitOnP_append_cons_of_forall_mem (by simp) _ rfl,
    List.splitOnP_append_cons_of_forall_mem hb _ rfl,
    List.splitOnP_append_cons_of_forall_mem (by simp) _ rfl, List.splitOnP_eq_singleton hc]
  simp [ha', hb', hc']

end PySpline
