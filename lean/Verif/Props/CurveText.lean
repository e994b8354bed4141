import Verif.Props.IO

/-!
# C122: curves as text
-/

set_option linter.unusedSectionVars false

namespace PySpline

open Spec

variable {K : Type} [Field K] [LinearOrder K] [IsStrictOrderedRing K]

/-- The lines of a curve file (`fit/io/text.py:28-49`): degree, number of knots, knots, number of control points,
control points; `tail` is at the end of the line with the knots. -/
def curveLines (fm : Fmt K) (tail : Text) (degree numKnots numPts : ℤ) (kv : List K) (pts : List (List K)) : List Text :=
  ["Degree - p:".toList, fm.int degree, "Number of Knots".toList, fm.int numKnots,
   "Knot Vector - U".toList, ['\t'].intercalate (kv.map fm.num) ++ tail,
   "Number of Control Points".toList, fm.int numPts, "Control Points".toList]
  ++ pts.map fun pt => fm.num (pt.getD 0 0) ++ ['\t', ' '] ++ fm.num (pt.getD 1 0) ++ ['\t', ' '] ++ fm.num (pt.getD 2 0)

/-- The file: every line ends with a newline. -/
def curveText (fm : Fmt K) (tail : Text) (degree numKnots numPts : ℤ) (kv : List K) (pts : List (List K)) : Text :=
  (curveLines fm tail degree numKnots numPts kv pts).flatMap (· ++ ['\n'])

theorem curveLines_newline {fm : Fmt K} (hf : fm.Ok) {tail : Text} (ht : NoEol tail) (d a b : ℤ) (kv : List K)
    (pts : List (List K)) : ∀ l ∈ curveLines fm tail d a b kv pts, NoEol l := by
  suffices ∀ ch, ch = '\n' ∨ ch = '\r' → ∀ l ∈ curveLines fm tail d a b kv pts, ch ∉ l from
    fun l hl ch hc => this ch hc l hl
  intro ch hc
  have hsp : pySpace ch = true := by rcases hc with rfl | rfl <;> decide
  have htab : ch ≠ '\t' := by rcases hc with rfl | rfl <;> decide
  have hspc : ch ≠ ' ' := by rcases hc with rfl | rfl <;> decide
  have hi : ∀ z, ch ∉ fm.int z := fun z => not_mem_of_space (hf.int z) hsp
  have hn : ∀ x, ch ∉ fm.num x := fun x => not_mem_of_space (hf.num x) hsp
  have hk : ∀ l : List K, ch ∉ ['\t'].intercalate (l.map fm.num) ++ tail := by
    intro l
    rw [List.mem_append, not_or]
    refine ⟨?_, ht ch hc⟩
    induction l with
    | nil => simp
    | cons x l ih =>
      cases l with
      | nil => simpa using hn x
      | cons y l =>
        rw [List.map_cons, List.map_cons, List.intercalate_cons_cons]
        rw [List.map_cons] at ih
        simp only [List.mem_append, not_or]
        exact ⟨⟨hn x, by simpa using htab⟩, ih⟩
  intro l hl
  unfold curveLines at hl
  rcases List.mem_append.1 hl with hl | hl
  · simp only [List.mem_cons, List.not_mem_nil, or_false] at hl
    rcases hl with h | h | h | h | h | h | h | h | h <;> rw [h] <;>
      first | exact hi _ | exact hk _ | (rcases hc with rfl | rfl <;> decide)
  · obtain ⟨pt, -, rfl⟩ := List.mem_map.1 hl
    simp [hn, htab, hspc]

/-- Opening the file and splitting it into lines. -/
theorem readCurve_lines {fm : Fmt K} (hf : fm.Ok) {tail : Text} (ht : NoEol tail) {name : String} {fs : FS}
    {d a b : ℤ} {kv : List K} {pts : List (List K)} (hfile : fs name = some (curveText fm tail d a b kv pts)) :
    readCurve fm name fs = ((do
      let ks ← mapPy fm.parseFloat ((['\t'].intercalate (kv.map fm.num) ++ tail).splitOn '\t')
      let ps ← readPoints fm (curveLines fm tail d a b kv pts) 9
      Except.ok (⟨d, ks, ps⟩ : CurveText K)), fs) := by
  have hopen : openRead name fs = (.ok (curveText fm tail d a b kv pts), fs) := by
    unfold openRead
    rw [hfile]
  unfold readCurve
  rw [Meth.bind_ok hopen]
  unfold Meth.lift
  refine Prod.ext ?_ rfl
  dsimp only
  have hpl : pyLines (curveText fm tail d a b kv pts) = curveLines fm tail d a b kv pts := by
    have := pyLines_lines _ (curveLines_newline hf ht d a b kv pts) []
    rwa [List.append_nil, pyLines_nil, List.append_nil] at this
  rw [hpl]
  have hlen : 9 ≤ (curveLines fm tail d a b kv pts).length := by
    unfold curveLines
    rw [List.length_append]
    exact Nat.le_add_right 9 _
  have get : ∀ (i : ℤ) (k : ℕ), i = k → k < 9 →
      pyGet (curveLines fm tail d a b kv pts) i = .ok ((curveLines fm tail d a b kv pts).getD k []) := by
    intro i k hi hk
    rw [pyGet_nat _ i k [] hi (by omega)]
  rw [get 1 1 rfl (by omega), ok_bind, show (curveLines fm tail d a b kv pts).getD 1 [] = fm.int d from rfl,
    hf.parseInt, ok_bind, get 3 3 rfl (by omega), ok_bind,
    show (curveLines fm tail d a b kv pts).getD 3 [] = fm.int a from rfl, hf.parseInt, ok_bind,
    get 5 5 rfl (by omega), ok_bind,
    show (curveLines fm tail d a b kv pts).getD 5 [] = ['\t'].intercalate (kv.map fm.num) ++ tail from rfl,
    get 7 7 rfl (by omega), show (curveLines fm tail d a b kv pts).getD 7 [] = fm.int b from rfl]
  congr 1
  funext kv'
  rw [ok_bind, hf.parseInt, ok_bind]

/-- **C122.** `read_curve_from_txt` reads degree, knots and control points from a file with the layout of
`write_curve_to_txt` without the trailing tab; the numbers of knots and of control points in the file are not used. -/
theorem read_curve_text {fm : Fmt K} (hf : fm.Ok) (d a b : ℤ) {kv : List K} (hkv : kv ≠ []) {pts : List (List K)}
    (hP : ∀ row ∈ pts, row.length = 3) (name : String) (fs : FS)
    (hfile : fs name = some (curveText fm [] d a b kv pts)) : readCurve fm name fs = (.ok ⟨d, kv, pts⟩, fs) := by
  rw [readCurve_lines hf (by rintro ch (rfl | rfl) <;> decide) hfile]
  refine Prod.ext ?_ rfl
  dsimp only
  have htab : ∀ t ∈ kv.map fm.num, '\t' ∉ t := by
    intro t ht
    obtain ⟨x, -, rfl⟩ := List.mem_map.1 ht
    exact not_mem_of_space (hf.num x) rfl
  have hmap : ∀ l : List K, mapPy fm.parseFloat (l.map fm.num) = .ok l := by
    intro l
    induction l with
    | nil => rfl
    | cons x l ih =>
      rw [List.map_cons]
      unfold mapPy
      rw [hf.parseNum, ok_bind, ih, ok_bind]
  rw [List.append_nil, List.splitOn_intercalate _ htab (by simpa using hkv), hmap, ok_bind]
  unfold readPoints
  have hd : (curveLines fm [] d a b kv pts).drop 9 = pts.map fun pt => fm.num (pt.getD 0 0)
      ++ ['\t', ' '] ++ fm.num (pt.getD 1 0) ++ ['\t', ' '] ++ fm.num (pt.getD 2 0) := rfl
  have hm : ∀ l : List (List K), (∀ row ∈ l, row.length = 3) →
      mapPy (fun line => mapPy fm.parseFloat (pyWords line)) (l.map fun pt => fm.num (pt.getD 0 0)
      ++ ['\t', ' '] ++ fm.num (pt.getD 1 0) ++ ['\t', ' '] ++ fm.num (pt.getD 2 0)) = .ok l := by
    intro l hl
    induction l with
    | nil => rfl
    | cons r l ih =>
      rw [List.map_cons]
      unfold mapPy
      rw [pyWords_three (hf.num _) (hf.num _) (hf.num _) (hf.ne _) (hf.ne _) (hf.ne _)]
      have h3 : mapPy fm.parseFloat [fm.num (r.getD 0 0), fm.num (r.getD 1 0), fm.num (r.getD 2 0)]
          = .ok [r.getD 0 0, r.getD 1 0, r.getD 2 0] := by
        simp only [mapPy, hf.parseNum, ok_bind]
      rw [h3, ok_bind, ih fun row hrow => hl row (by simp [hrow]), ok_bind,
        ← row_eq_three (hl r (by simp))]
  rw [hd, hm _ hP, ok_bind]
  unfold arrayOfRows
  rw [if_pos, ok_bind]
  rw [List.all_eq_true]
  intro r hr
  cases hc : pts with
  | nil => rw [hc] at hr; cases hr
  | cons x l =>
    rw [hc] at hP hr
    simp [hP r hr, hP x (by simp)]

/-- **C122.** The layout of `write_curve_to_txt` itself, in which a tab follows every knot, cannot be read. -/
theorem read_curve_text_tab {fm : Fmt K} (hf : fm.Ok) (d a b : ℤ) {kv : List K} (hkv : kv ≠ []) (pts : List (List K))
    (name : String) (fs : FS) (hfile : fs name = some (curveText fm ['\t'] d a b kv pts)) :
    readCurve fm name fs = (.error .valueError, fs) := by
  rw [readCurve_lines hf (by rintro ch (rfl | rfl) <;> decide) hfile]
  refine Prod.ext ?_ rfl
  dsimp only
  rw [← flatMap_tabs (by simpa using hkv), splitOn_tabs _ (by
      intro l hl
      obtain ⟨x, -, rfl⟩ := List.mem_map.1 hl
      exact not_mem_of_space (hf.num x) rfl)]
  have : mapPy fm.parseFloat (kv.map fm.num ++ [[]]) = .error .valueError := by
    refine mapPy_append_error (g := fun t => match fm.parseFloat t with | .ok x => x | _ => 0) ?_
      hf.empty
    intro y hy
    obtain ⟨x, -, rfl⟩ := List.mem_map.1 hy
    rw [hf.parseNum]
  rw [this]
  rfl

/-- C122: a segment; the counts in the file are wrong. -/
example : (readCurve exFmt "c.txt" fun _ =>
    some (curveText exFmt [] 1 2 4 [0, 0, 1, 1] [[1, 1/2, 0], [0, 1, 1]])).1
    = .ok ⟨1, [0, 0, 1, 1], [[1, 1/2, 0], [0, 1, 1]]⟩ := by decide +kernel

/-- With the tab behind the last knot. -/
example : (readCurve exFmt "c.txt" fun _ =>
    some (curveText exFmt ['\t'] 1 4 2 [0, 0, 1, 1] [[1, 1/2, 0], [0, 1, 1]])).1
    = .error .valueError := by decide +kernel

/-- The text with its line terminators replaced by `eol`. -/
def withEol (eol t : Text) : Text := t.flatMap fun c => if c = '\n' then eol else [c]

theorem universalNewlines_withEol {eol : Text} (he : eol = ['\r', '\n'] ∨ eol = ['\r']) {t : Text}
    (ht : '\r' ∉ t) : universalNewlines (withEol eol t) = t := by
  induction t with
  | nil => rfl
  | cons c t ih =>
    simp only [List.mem_cons, not_or] at ht
    specialize ih ht.2
    by_cases hc : c = '\n'
    · subst hc
      rcases he with rfl | rfl
      · show '\n' :: universalNewlines (withEol ['\r', '\n'] t) = _
        rw [ih]
      · have hh : (withEol ['\r'] t).head? ≠ some '\n' := by
          intro h
          have hm : '\n' ∈ withEol ['\r'] t := List.mem_of_mem_head? h
          obtain ⟨c, -, hm⟩ := List.mem_flatMap.1 hm
          split at hm
          · simp at hm
          · next h' => exact h' (List.mem_singleton.1 hm).symm
        show (if (withEol ['\r'] t).head? = some '\n' then _ else '\n' :: universalNewlines (withEol ['\r'] t)) = _
        rw [if_neg hh, ih]
    · have : withEol eol (c :: t) = c :: withEol eol t := by
        show (if c = '\n' then eol else [c]) ++ withEol eol t = _
        rw [if_neg hc]
        rfl
      rw [this, universalNewlines, if_neg (Ne.symm ht.1), ih]

/-- **C156.** The readers do not depend on the line terminators of the file: with `'\r\n'` or `'\r'` in
place of `'\n'` they return the same or raise the same exception. -/
theorem read_any_line_terminator (fm : Fmt K) (name : String) {fs fs' : FS} {t eol : Text} (ht : '\r' ∉ t)
    (he : eol = ['\r', '\n'] ∨ eol = ['\r']) (hfs : fs name = some t)
    (hfs' : fs' name = some (withEol eol t)) :
    (readCurve fm name fs').1 = (readCurve fm name fs).1 ∧
    (readSurf fm name fs').1 = (readSurf fm name fs).1 := by
  have h : openRead name fs = (.ok t, fs) := by unfold openRead; rw [hfs]
  have h' : openRead name fs' = (.ok (withEol eol t), fs') := by unfold openRead; rw [hfs']
  have hl : pyLines (withEol eol t) = pyLines t := by
    unfold pyLines
    rw [universalNewlines_withEol he ht, universalNewlines_self ht]
  constructor
  · unfold readCurve
    rw [Meth.bind_ok h, Meth.bind_ok h', hl]
    rfl
  · unfold readSurf
    rw [Meth.bind_ok h, Meth.bind_ok h', hl]
    rfl

/-- The segment of C122 in a file with the terminators of Windows, and with a mixture of terminators. -/
example : (readCurve exFmt "c.txt" fun _ =>
    some (withEol ['\r', '\n'] (curveText exFmt [] 1 2 4 [0, 0, 1, 1] [[1, 1/2, 0], [0, 1, 1]]))).1
    = .ok ⟨1, [0, 0, 1, 1], [[1, 1/2, 0], [0, 1, 1]]⟩ ∧
    pyLines "a\rb\r\n\rc\n\nd".toList = ["a".toList, "b".toList, [], "c".toList, [], "d".toList] := by
  decide +kernel

end PySpline
