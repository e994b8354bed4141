import Verif.Lemmas.Parameterize
import Verif.Props.Surface
import Verif.Props.Geometry
import Mathlib.Tactic.IntervalCases

/-!
# Auxiliary lemmas for `Props/Parameterize.lean`
-/

set_option linter.unusedSectionVars false

namespace PySpline

open Spec

section
variable {K : Type} [Field K] [LinearOrder K] [IsStrictOrderedRing K]

theorem vsub_three (a b c x y z : K) : vsub [a, b, c] [x, y, z] = .ok [a - x, b - y, c - z] := rfl

theorem line_cond2 (nm : Num K) (x1 x2 x3 b1 b2 b3 p1 p2 p3 u eps : K) (l : List K) :
    curveCond2 nm [p1, p2, p3] eps ⟨u, [x1, x2, x3], [b1, b2, b3], l⟩
      = .ok (ratioLe |b1 * (x1 - p1) + (b2 * (x2 - p2) + b3 * (x3 - p3))|
          (nm.norm [b1, b2, b3] * nm.norm [x1 - p1, x2 - p2, x3 - p3]) eps) := by
  unfold curveCond2
  rw [vsub_three, ok_bind]
  simp [dot]

theorem mapPy_bind_ok {α β γ : Type} {f : α → Py β} {g : α → β → γ} {l : List α} {rows : List γ}
    (h : mapPy (fun x => do let y ← f x; .ok (g x y)) l = .ok rows) :
    ∃ ys, mapPy f l = .ok ys ∧ rows = List.zipWith g l ys := by
  induction l generalizing rows with
  | nil => cases h; exact ⟨[], rfl, rfl⟩
  | cons x xs ih =>
    unfold mapPy at h
    obtain ⟨r, hr, h⟩ := bind_eq_ok h
    obtain ⟨y, hy, hr⟩ := bind_eq_ok hr
    obtain ⟨rs, hrs, h⟩ := bind_eq_ok h
    cases hr
    cases h
    obtain ⟨ys, hys, rfl⟩ := ih hrs
    refine ⟨y :: ys, ?_, rfl⟩
    unfold mapPy
    rw [hy, ok_bind, hys, ok_bind]

theorem mapPy_perm {α β : Type} {f : α → Py β} {l l' : List α} (hl : l.Perm l') :
    ∀ {rows : List β}, mapPy f l = .ok rows → ∃ rows', mapPy f l' = .ok rows' ∧ rows.Perm rows' := by
  induction hl with
  | nil => intro rows h; cases h; exact ⟨[], rfl, .nil⟩
  | cons x _ ih =>
    intro rows h
    unfold mapPy at h
    obtain ⟨r, hr, h⟩ := bind_eq_ok h
    obtain ⟨rs, hrs, h⟩ := bind_eq_ok h
    cases h
    obtain ⟨rs', hrs', hp⟩ := ih hrs
    refine ⟨r :: rs', ?_, hp.cons r⟩
    unfold mapPy
    rw [hr, ok_bind, hrs', ok_bind]
  | swap x y l =>
    intro rows h
    unfold mapPy at h
    obtain ⟨r, hr, h⟩ := bind_eq_ok h
    obtain ⟨rs, hrs, h⟩ := bind_eq_ok h
    cases h
    unfold mapPy at hrs
    obtain ⟨r', hr', hrs⟩ := bind_eq_ok hrs
    obtain ⟨rs', hrs', hrs⟩ := bind_eq_ok hrs
    cases hrs
    refine ⟨r' :: r :: rs', ?_, List.Perm.swap _ _ _⟩
    simp only [mapPy, hr, hr', hrs', ok_bind]
  | trans _ _ ih1 ih2 =>
    intro rows h
    obtain ⟨r1, h1, p1⟩ := ih1 h
    obtain ⟨r2, h2, p2⟩ := ih2 h1
    exact ⟨r2, h2, p1.trans p2⟩

theorem key_head_le {i : ℕ} {order : List ℕ} {a b : List K}
    (h : sortKey (i :: order) a ≤ sortKey (i :: order) b) : a.getD i 0 ≤ b.getD i 0 := by
  by_contra hlt
  exact absurd h (not_le.2 (List.Lex.rel (not_le.1 hlt)))

end

end PySpline
