import Verif.Lemmas.IOAux
import Verif.Lemmas.IO
import Verif.Props.Geometry
import Verif.Props.Surface
import Mathlib.Data.Rat.Floor
import Mathlib.Data.Rat.Encodable

/-!
# Files: C64, C65, C68, C69, C87–C89
-/

set_option linter.unusedSectionVars false

namespace PySpline

open Spec

section
variable {K : Type} [Field K] [LinearOrder K] [IsStrictOrderedRing K]

/-! ## C64, C65: surfaces as text -/

/-- Printed numbers are not empty, contain no white space and are read back; an empty string is not
a float. -/
structure Fmt.Ok (fm : Fmt K) : Prop where
  num : ∀ x, ∀ ch ∈ fm.num x, pySpace ch = false
  int : ∀ z, ∀ ch ∈ fm.int z, pySpace ch = false
  ne : ∀ x, fm.num x ≠ []
  parseNum : ∀ x, fm.parseFloat (fm.num x) = .ok x
  parseInt : ∀ z, fm.parseInt (fm.int z) = .ok z
  empty : fm.parseFloat [] = .error .valueError

/-- The lines of a surface file, with `tail` at the end of the lines with the knots. -/
def surfaceLines (fm : Fmt K) (tail : Text) (s : Surface K) : List Text :=
  ["Degree - p:".toList, fm.int s.degreeU, "Degree - q:".toList, fm.int s.degreeV,
   "Number of Knots in U".toList, fm.int s.kvU.length,
   "Number of Knots in V".toList, fm.int s.kvV.length,
   "Knot Vector - U".toList, ['\t'].intercalate (s.kvU.map fm.num) ++ tail,
   "Knot Vector - V".toList, ['\t'].intercalate (s.kvV.map fm.num) ++ tail,
   "Number of Control Points in U".toList, fm.int s.numU,
   "Number of Control Points in V".toList, fm.int s.numV,
   "Control Points".toList]
  ++ s.ctrlpts.map fun pt => fm.num (pt.getD 0 0) ++ ['\t', ' '] ++ fm.num (pt.getD 1 0)
      ++ ['\t', ' '] ++ fm.num (pt.getD 2 0)

/-- The file: every line ends with a newline. -/
def surfaceText (fm : Fmt K) (tail : Text) (s : Surface K) : Text :=
  (surfaceLines fm tail s).flatMap (· ++ ['\n'])

/-- The head of a surface file as the writer produces it. -/
def writtenHead (fm : Fmt K) (s : Surface K) : List Text :=
  ["Degree - p:".toList, fm.int s.degreeU, "Degree - q:".toList, fm.int s.degreeV,
   "Number of Knots in U".toList, fm.int s.kvU.length,
   "Number of Knots in V".toList, fm.int s.kvV.length,
   "Knot Vector - U".toList, (s.kvU.map fm.num).flatMap (· ++ ['\t']),
   "Knot Vector - V".toList, (s.kvV.map fm.num).flatMap (· ++ ['\t']),
   "Number of Control Points in U".toList, fm.int s.numU,
   "Number of Control Points in V".toList, fm.int s.numV,
   "Control Points".toList]

/-- The part of the writer after opening the file and before the control points. -/
def writeHead (fm : Fmt K) (s : Surface K) (name : String) (k : Meth FS Unit) : Meth FS Unit := do
  emit name "Degree - p:\n".toList
  emit name (fm.int s.degreeU ++ ['\n'])
  emit name "Degree - q:\n".toList
  emit name (fm.int s.degreeV ++ ['\n'])
  emit name "Number of Knots in U\n".toList
  emit name (fm.int s.kvU.length ++ ['\n'])
  emit name "Number of Knots in V\n".toList
  emit name (fm.int s.kvV.length ++ ['\n'])
  emit name "Knot Vector - U\n".toList
  Meth.each s.kvU fun knot => emit name (fm.num knot ++ ['\t'])
  emit name ['\n']
  emit name "Knot Vector - V\n".toList
  Meth.each s.kvV fun knot => emit name (fm.num knot ++ ['\t'])
  emit name ['\n']
  emit name "Number of Control Points in U\n".toList
  emit name (fm.int s.numU ++ ['\n'])
  emit name "Number of Control Points in V\n".toList
  emit name (fm.int s.numV ++ ['\n'])
  emit name "Control Points\n".toList
  k

/-- After the head, `k` continues with the file holding the head. -/
theorem writeHead_run (fm : Fmt K) (s : Surface K) (name : String) (k : Meth FS Unit) :
    WritesThen name (writeHead fm s name k) k ((writtenHead fm s).flatMap (· ++ ['\n'])) := by
  have each : ∀ l : List K, Writes name (Meth.each l fun knot => emit name (fm.num knot ++ ['\t']))
      ((l.map fm.num).flatMap (· ++ ['\t'])) := by
    intro l
    have := writes_each (name := name) l (body := fun knot => emit name (fm.num knot ++ ['\t']))
      (f := fun x => fm.num x ++ ['\t']) fun x _ => writes_emit _ _
    rwa [List.flatMap_map]
  have e : ∀ t, Writes name (emit name t) t := writes_emit name
  have s1 : "Degree - p:\n".toList = "Degree - p:".toList ++ ['\n'] := by decide
  have s2 : "Degree - q:\n".toList = "Degree - q:".toList ++ ['\n'] := by decide
  have s3 : "Number of Knots in U\n".toList = "Number of Knots in U".toList ++ ['\n'] := by decide
  have s4 : "Number of Knots in V\n".toList = "Number of Knots in V".toList ++ ['\n'] := by decide
  have s5 : "Knot Vector - U\n".toList = "Knot Vector - U".toList ++ ['\n'] := by decide
  have s6 : "Knot Vector - V\n".toList = "Knot Vector - V".toList ++ ['\n'] := by decide
  have s7 : "Number of Control Points in U\n".toList
      = "Number of Control Points in U".toList ++ ['\n'] := by decide
  have s8 : "Number of Control Points in V\n".toList
      = "Number of Control Points in V".toList ++ ['\n'] := by decide
  have s9 : "Control Points\n".toList = "Control Points".toList ++ ['\n'] := by decide
  have ht : ∀ a b : Text, a = b → WritesThen name (writeHead fm s name k) k a →
      WritesThen name (writeHead fm s name k) k b := fun a b h h' => h ▸ h'
  refine ht _ _ ?_ (by
    unfold writeHead
    exact (e "Degree - p:\n".toList).thenWrites <| (e (fm.int s.degreeU ++ ['\n'])).thenWrites <|
      (e "Degree - q:\n".toList).thenWrites <| (e (fm.int s.degreeV ++ ['\n'])).thenWrites <|
      (e "Number of Knots in U\n".toList).thenWrites <|
      (e (fm.int s.kvU.length ++ ['\n'])).thenWrites <|
      (e "Number of Knots in V\n".toList).thenWrites <|
      (e (fm.int s.kvV.length ++ ['\n'])).thenWrites <|
      (e "Knot Vector - U\n".toList).thenWrites <| (each s.kvU).thenWrites <| (e ['\n']).thenWrites <|
      (e "Knot Vector - V\n".toList).thenWrites <| (each s.kvV).thenWrites <| (e ['\n']).thenWrites <|
      (e "Number of Control Points in U\n".toList).thenWrites <|
      (e (fm.int s.numU ++ ['\n'])).thenWrites <|
      (e "Number of Control Points in V\n".toList).thenWrites <|
      (e (fm.int s.numV ++ ['\n'])).thenWrites <|
      (e "Control Points\n".toList).thenWrites (f := fun _ => k) <| writesThen_refl name k)
  rw [s1, s2, s3, s4, s5, s6, s7, s8, s9]
  simp only [writtenHead, List.flatMap_cons, List.flatMap_nil, List.append_nil, List.append_assoc]

/-- The loop over the control points. -/
def writePoints (fm : Fmt K) (s : Surface K) (name : String) : Meth FS Unit :=
  Meth.each s.ctrlpts fun pt => do
    let x ← Meth.lift (pyGet pt 0)
    let y ← Meth.lift (pyGet pt 1)
    let z ← Meth.lift (pyGet pt 2)
    emit name (fm.num x ++ ['\t', ' '] ++ fm.num y ++ ['\t', ' '] ++ fm.num z ++ ['\n'])

theorem writeSurface_eq (fm : Fmt K) (s : Surface K) (name : String) (fs : FS) :
    writeSurface fm s name fs = writePoints fm s name (fun n => if n = name then
      some ((writtenHead fm s).flatMap (· ++ ['\n'])) else fs n) := by
  have h := writeHead_run fm s name (writePoints fm s name)
    (fun n => if n = name then some [] else fs n) [] (if_pos rfl)
  have e : writeSurface fm s name fs
      = writeHead fm s name (writePoints fm s name) (fun n => if n = name then some [] else fs n) :=
    rfl
  rw [e, h]
  congr 1
  funext n
  by_cases hn : n = name
  · rw [if_pos hn, if_pos hn, List.nil_append]
  · rw [if_neg hn, if_neg hn, if_neg hn]

theorem writtenHead_lines {fm : Fmt K} (hf : fm.Ok) (s : Surface K) :
    ∀ l ∈ writtenHead fm s, NoEol l := by
  suffices ∀ ch, ch = '\n' ∨ ch = '\r' → ∀ l ∈ writtenHead fm s, ch ∉ l from
    fun l hl ch hc => this ch hc l hl
  intro ch hc
  have hsp : pySpace ch = true := by rcases hc with rfl | rfl <;> decide
  have htab : ch ≠ '\t' := by rcases hc with rfl | rfl <;> decide
  have hi : ∀ z, ch ∉ fm.int z := fun z => not_mem_of_space (hf.int z) hsp
  have hk : ∀ l : List K, ch ∉ (l.map fm.num).flatMap (· ++ ['\t']) := by
    intro l hm
    obtain ⟨t, ht, hm⟩ := List.mem_flatMap.1 hm
    obtain ⟨x, -, rfl⟩ := List.mem_map.1 ht
    rcases List.mem_append.1 hm with h | h
    · exact not_mem_of_space (hf.num x) hsp h
    · simp [htab] at h
  intro l hl
  simp only [writtenHead, List.mem_cons, List.not_mem_nil, or_false] at hl
  rcases hl with h | h | h | h | h | h | h | h | h | h | h | h | h | h | h | h | h <;> rw [h] <;>
    first | exact hi _ | exact hk _ | (rcases hc with rfl | rfl <;> decide)

/-- **C64.** Whatever `write_surface_to_txt` leaves in the file, `read_surf_from_txt` raises
`ValueError` on it: for every surface, also when the writer itself raises. -/
theorem written_surface_unreadable {fm : Fmt K} (hf : fm.Ok) (s : Surface K) (name : String)
    (fs : FS) :
    readSurf fm name (writeSurface fm s name fs).2
      = (.error .valueError, (writeSurface fm s name fs).2) := by
  have happ : Appends name (writePoints fm s name) :=
    appends_each _ fun pt _ => appends_lift _ fun x => appends_lift _ fun y => appends_lift _ fun z =>
      (writes_emit _ _).appends
  rw [writeSurface_eq]
  obtain ⟨t, ht⟩ := happ (fun n => if n = name then
    some ((writtenHead fm s).flatMap (· ++ ['\n'])) else fs n)
    ((writtenHead fm s).flatMap (· ++ ['\n'])) (if_pos rfl)
  rw [ht]
  set fs' : FS := fun n => if n = name then some ((writtenHead fm s).flatMap (· ++ ['\n']) ++ t)
    else (fun n => if n = name then some ((writtenHead fm s).flatMap (· ++ ['\n'])) else fs n) n with hfs
  have hopen : openRead name fs' = (.ok ((writtenHead fm s).flatMap (· ++ ['\n']) ++ t), fs') := by
    unfold openRead
    rw [show fs' name = _ from if_pos rfl]
  unfold readSurf
  rw [Meth.bind_ok hopen]
  unfold Meth.lift
  refine Prod.ext ?_ rfl
  dsimp only
  rw [pyLines_lines _ (writtenHead_lines hf s)]
  have hlen : (writtenHead fm s).length = 17 := rfl
  have get : ∀ (i : ℤ) (k : ℕ), i = k → k < 17 →
      pyGet (writtenHead fm s ++ pyLines t) i = .ok ((writtenHead fm s).getD k []) := by
    intro i k hi hk
    rw [pyGet_nat _ i k [] hi (by rw [List.length_append, hlen]; omega),
      List.getD_eq_getElem?_getD, List.getElem?_append_left (by rw [hlen]; exact hk),
      ← List.getD_eq_getElem?_getD]
  rw [get 1 1 rfl (by omega), ok_bind, show (writtenHead fm s).getD 1 [] = fm.int s.degreeU from rfl,
    hf.parseInt, ok_bind, get 3 3 rfl (by omega), ok_bind,
    show (writtenHead fm s).getD 3 [] = fm.int s.degreeV from rfl, hf.parseInt, ok_bind,
    get 5 5 rfl (by omega), ok_bind, show (writtenHead fm s).getD 5 [] = fm.int s.kvU.length from rfl,
    hf.parseInt, ok_bind, get 7 7 rfl (by omega), ok_bind,
    show (writtenHead fm s).getD 7 [] = fm.int s.kvV.length from rfl, hf.parseInt, ok_bind,
    get 9 9 rfl (by omega), ok_bind,
    show (writtenHead fm s).getD 9 [] = (s.kvU.map fm.num).flatMap (· ++ ['\t']) from rfl,
    splitOn_tabs _ (by
      intro l hl
      obtain ⟨x, -, rfl⟩ := List.mem_map.1 hl
      exact not_mem_of_space (hf.num x) rfl)]
  have : mapPy fm.parseFloat (s.kvU.map fm.num ++ [[]]) = .error .valueError := by
    refine mapPy_append_error (g := fun t => match fm.parseFloat t with | .ok x => x | _ => 0) ?_
      hf.empty
    intro y hy
    obtain ⟨x, -, rfl⟩ := List.mem_map.1 hy
    rw [hf.parseNum]
  rw [this]
  rfl

/-- **C64**, what is in the file: the layout `surfaceText` with a tab at the end of the two lines of
knots; all other files are unchanged. -/
theorem write_surface_text (fm : Fmt K) (s : Surface K) (name : String) (fs : FS)
    (hU : s.kvU ≠ []) (hV : s.kvV ≠ []) (hP : ∀ row ∈ s.ctrlpts, row.length = 3) :
    writeSurface fm s name fs = (.ok (), fun n => if n = name then
      some (surfaceText fm ['\t'] s) else fs n) := by
  rw [writeSurface_eq]
  have hw : Writes name (writePoints fm s name) (s.ctrlpts.flatMap fun pt =>
      fm.num (pt.getD 0 0) ++ ['\t', ' '] ++ fm.num (pt.getD 1 0) ++ ['\t', ' ']
        ++ fm.num (pt.getD 2 0) ++ ['\n']) := by
    refine writes_each _ fun pt hpt => ?_
    have hl := hP pt hpt
    rw [pyGet_nat pt 0 0 0 rfl (by omega), pyGet_nat pt 1 1 0 rfl (by omega),
      pyGet_nat pt 2 2 0 rfl (by omega)]
    exact writes_emit _ _
  rw [hw _ _ (if_pos rfl)]
  refine Prod.ext rfl (funext fun n => ?_)
  dsimp only
  by_cases hn : n = name
  · rw [if_pos hn, if_pos hn]
    congr 1
    unfold surfaceText surfaceLines writtenHead
    rw [flatMap_tabs (by simpa using hU), flatMap_tabs (by simpa using hV), List.flatMap_append,
      List.flatMap_map]
  · rw [if_neg hn, if_neg hn, if_neg hn]

/-- **C65.** The same layout without the trailing tabs is read back exactly. -/
theorem read_surface_text {fm : Fmt K} (hf : fm.Ok) (s : Surface K) (name : String) (fs : FS)
    (hU : s.kvU ≠ []) (hV : s.kvV ≠ []) (hP : ∀ row ∈ s.ctrlpts, row.length = 3)
    (hfile : fs name = some (surfaceText fm [] s)) :
    readSurf fm name fs = (.ok ⟨s.degreeU, s.degreeV, s.numU, s.numV, s.kvU, s.kvV, s.ctrlpts⟩, fs) := by
  have htab : ∀ l : List K, ∀ t ∈ l.map fm.num, '\t' ∉ t := by
    intro l t ht
    obtain ⟨x, -, rfl⟩ := List.mem_map.1 ht
    exact not_mem_of_space (hf.num x) rfl
  have hlines : ∀ l ∈ surfaceLines fm [] s, NoEol l := by
    suffices ∀ ch, ch = '\n' ∨ ch = '\r' → ∀ l ∈ surfaceLines fm [] s, ch ∉ l from
      fun l hl ch hc => this ch hc l hl
    intro ch hc
    have hsp : pySpace ch = true := by rcases hc with rfl | rfl <;> decide
    have hct : ch ≠ '\t' := by rcases hc with rfl | rfl <;> decide
    have hcs : ch ≠ ' ' := by rcases hc with rfl | rfl <;> decide
    have hi : ∀ z, ch ∉ fm.int z := fun z => not_mem_of_space (hf.int z) hsp
    have hn : ∀ x, ch ∉ fm.num x := fun x => not_mem_of_space (hf.num x) hsp
    have hk : ∀ l : List K, ch ∉ ['\t'].intercalate (l.map fm.num) ++ [] := by
      intro l
      rw [List.append_nil]
      induction l with
      | nil => simp
      | cons x l ih =>
        cases l with
        | nil => simpa using hn x
        | cons y l =>
          rw [List.map_cons, List.map_cons, List.intercalate_cons_cons]
          rw [List.map_cons] at ih
          simp only [List.mem_append, not_or]
          exact ⟨⟨hn x, by simpa using hct⟩, ih⟩
    intro l hl
    unfold surfaceLines at hl
    rcases List.mem_append.1 hl with hl | hl
    · simp only [List.mem_cons, List.not_mem_nil, or_false] at hl
      rcases hl with h | h | h | h | h | h | h | h | h | h | h | h | h | h | h | h | h <;> rw [h] <;>
        first | exact hi _ | exact hk _ | (rcases hc with rfl | rfl <;> decide)
    · obtain ⟨pt, -, rfl⟩ := List.mem_map.1 hl
      simp [hn, hct, hcs]
  have hopen : openRead name fs = (.ok (surfaceText fm [] s), fs) := by
    unfold openRead
    rw [hfile]
  unfold readSurf
  rw [Meth.bind_ok hopen]
  unfold Meth.lift
  refine Prod.ext ?_ rfl
  dsimp only
  have hpl : pyLines (surfaceText fm [] s) = surfaceLines fm [] s := by
    have := pyLines_lines _ hlines []
    rwa [List.append_nil, pyLines_nil, List.append_nil] at this
  rw [hpl]
  have hlen : 17 ≤ (surfaceLines fm [] s).length := by
    unfold surfaceLines
    rw [List.length_append]
    exact Nat.le_add_right 17 _
  have get : ∀ (i : ℤ) (k : ℕ), i = k → k < 17 →
      pyGet (surfaceLines fm [] s) i = .ok ((surfaceLines fm [] s).getD k []) := by
    intro i k hi hk
    rw [pyGet_nat _ i k [] hi (by omega)]
  have knots : ∀ l : List K, l ≠ [] →
      mapPy fm.parseFloat ((['\t'].intercalate (l.map fm.num) ++ []).splitOn '\t') = .ok l := by
    intro l hl
    rw [List.append_nil, List.splitOn_intercalate _ (htab l) (by simpa using hl)]
    clear hl
    induction l with
    | nil => rfl
    | cons x l ih =>
      rw [List.map_cons]
      unfold mapPy
      rw [hf.parseNum, ok_bind, ih, ok_bind]
  have pts : readPoints fm (surfaceLines fm [] s) 17 = .ok s.ctrlpts := by
    unfold readPoints
    have hd : (surfaceLines fm [] s).drop 17 = s.ctrlpts.map fun pt => fm.num (pt.getD 0 0)
        ++ ['\t', ' '] ++ fm.num (pt.getD 1 0) ++ ['\t', ' '] ++ fm.num (pt.getD 2 0) := rfl
    have hm : ∀ l : List (List K), (∀ row ∈ l, row.length = 3) →
        mapPy (fun line => mapPy fm.parseFloat (pyWords line)) (l.map fun pt => fm.num (pt.getD 0 0)
        ++ ['\t', ' '] ++ fm.num (pt.getD 1 0) ++ ['\t', ' '] ++ fm.num (pt.getD 2 0)) = .ok l := by
      intro l hl
      induction l with
      | nil => rfl
      | cons r l ih =>
        rw [List.map_cons]
        unfold mapPy
        rw [pyWords_three (hf.num _) (hf.num _) (hf.num _) (hf.ne _) (hf.ne _) (hf.ne _)]
        have h3 : mapPy fm.parseFloat [fm.num (r.getD 0 0), fm.num (r.getD 1 0), fm.num (r.getD 2 0)]
            = .ok [r.getD 0 0, r.getD 1 0, r.getD 2 0] := by
          simp only [mapPy, hf.parseNum, ok_bind]
        rw [h3, ok_bind, ih fun row hrow => hl row (by simp [hrow]), ok_bind,
          ← row_eq_three (hl r (by simp))]
    rw [hd, hm _ hP, ok_bind]
    unfold arrayOfRows
    rw [if_pos]
    rw [List.all_eq_true]
    intro r hr
    cases hc : s.ctrlpts with
    | nil => rw [hc] at hr; cases hr
    | cons a l =>
      rw [hc] at hP hr
      simp [hP r hr, hP a (by simp)]
  rw [get 1 1 rfl (by omega), ok_bind,
    show (surfaceLines fm [] s).getD 1 [] = fm.int s.degreeU from rfl,
    hf.parseInt, ok_bind, get 3 3 rfl (by omega), ok_bind,
    show (surfaceLines fm [] s).getD 3 [] = fm.int s.degreeV from rfl, hf.parseInt, ok_bind,
    get 5 5 rfl (by omega), ok_bind,
    show (surfaceLines fm [] s).getD 5 [] = fm.int s.kvU.length from rfl,
    hf.parseInt, ok_bind, get 7 7 rfl (by omega), ok_bind,
    show (surfaceLines fm [] s).getD 7 [] = fm.int s.kvV.length from rfl, hf.parseInt, ok_bind,
    get 9 9 rfl (by omega), ok_bind,
    show (surfaceLines fm [] s).getD 9 [] = ['\t'].intercalate (s.kvU.map fm.num) ++ [] from rfl,
    knots _ hU, ok_bind, get 11 11 rfl (by omega), ok_bind,
    show (surfaceLines fm [] s).getD 11 [] = ['\t'].intercalate (s.kvV.map fm.num) ++ [] from rfl,
    knots _ hV, ok_bind, get 13 13 rfl (by omega), ok_bind,
    show (surfaceLines fm [] s).getD 13 [] = fm.int s.numU from rfl, hf.parseInt, ok_bind,
    get 15 15 rfl (by omega), ok_bind,
    show (surfaceLines fm [] s).getD 15 [] = fm.int s.numV from rfl, hf.parseInt, ok_bind, pts,
    ok_bind]

/-! ## C68, C87, C88: JSON -/

/-- **C68, C88.** The file names that reader and writer accept: the ones that end in `.json` and have a character other
than a dot before. -/
theorem extension_json (name : String) : extension name = ".json".toList ↔
    ∃ root : List Char, name.toList = root ++ ".json".toList ∧ ∃ c ∈ root, c ≠ '.' := by
  unfold extension
  generalize name.toList = l
  dsimp only
  have hj : ".json".toList = '.' :: ['j', 's', 'o', 'n'] := by decide
  rw [hj]
  constructor
  · intro h
    by_cases h0 : '.' ∈ l
    · rw [if_neg (not_not.mpr h0)] at h
      split at h
      · exact absurd h (by simp)
      · rename_i hr
        have he : (l.reverse.takeWhile (· ≠ '.')).reverse = ['j', 's', 'o', 'n'] := by
          simpa using h
        have htw : l.reverse.takeWhile (· ≠ '.') = ['n', 'o', 's', 'j'] := by
          simpa using congrArg List.reverse he
        have hsp := List.takeWhile_append_dropWhile (p := fun c => decide (c ≠ '.')) (l := l.reverse)
        rw [htw] at hsp
        obtain ⟨d, t, hd⟩ : ∃ d t, l.reverse.dropWhile (fun c => decide (c ≠ '.')) = d :: t := by
          cases hc : l.reverse.dropWhile (fun c => decide (c ≠ '.')) with
          | nil =>
            exfalso
            rw [hc] at hsp
            have hm : '.' ∈ l.reverse := by simpa using h0
            rw [← hsp] at hm
            exact absurd hm (by decide)
          | cons d t => exact ⟨d, t, rfl⟩
        have hdot : d = '.' := by
          have := List.head_dropWhile_not (p := fun c => decide (c ≠ '.')) (l := l.reverse) (by rw [hd]; simp)
          simp only [hd, List.head_cons] at this
          simpa using this
        rw [hd, hdot] at hsp
        have hl : l = t.reverse ++ '.' :: ['j', 's', 'o', 'n'] := by
          have := congrArg List.reverse hsp
          simpa using this.symm
        refine ⟨t.reverse, hl, ?_⟩
        rw [he, hl] at hr
        simpa using hr
    · rw [if_pos h0] at h
      exact absurd h (by simp)
  · rintro ⟨root, rfl, c, hc, hcd⟩
    have htw : ((root ++ '.' :: ['j', 's', 'o', 'n']).reverse.takeWhile (· ≠ '.')).reverse
        = ['j', 's', 'o', 'n'] := by
      simp
    rw [if_neg (by simp), htw, if_neg]
    simp
    exact ⟨c, hc, hcd⟩

/-- **C68.** Saving a curve as JSON raises for every curve, and leaves an empty file under the target
name, whatever was there before; with any other extension it raises and changes nothing. -/
theorem json_save_truncates (dump : JsonDump K) (c : ClassState K) (w : Writer K) (fs : FS) :
    (extension w.file = ".json".toList → w.write dump c fs
      = (.error .attributeError, fun n => if n = w.file then some [] else fs n)) ∧
    (extension w.file ≠ ".json".toList → w.write dump c fs = (.error .valueError, fs)) := by
  unfold Writer.write
  constructor
  · intro h
    rw [if_pos h]
    unfold Writer.json openWrite
    rw [to_dict_raises]
    rfl
  · intro h
    rw [if_neg h]
    rfl

/-- **C87.** No `CurveWriter` can be constructed: `BaseWriter.__init__` names the class `BaseReader`,
of which a writer is no subclass.  Constructing a `CurveReader` is fine. -/
theorem curve_writer_init_raises (file : String) (spline : Obj K) :
    baseWriterInit .curveWriter file spline = .error .typeError ∧
    baseWriterInit .baseWriter file spline = .error .typeError ∧
    curveReaderInit file = .ok file := ⟨rfl, rfl, rfl⟩

/-- **C88.** A successful `CurveReader.read` returns `None`; it reads a file with the right extension
and changes no file; and it changes the class: every curve on which the name has not been assigned
since then shows the control points of the file. -/
theorem curve_reader_result (parse : Text → Py (List (String × Arr K))) (file : String)
    (st st' : ClassState K × FS) (r : Option (ClassState K))
    (h : readerRead parse file st = (.ok r, st')) :
    r = none ∧ st'.2 = st.2 ∧ extension file = ".json".toList ∧
      ∃ t d a, st.2 file = some t ∧ parse t = .ok d ∧ d.lookup "control_points" = some a ∧
        ∀ o : Obj K, o.instCtrl = none → o.getCtrl st'.1 = some (.arr a) := by
  obtain ⟨c, fs⟩ := st
  unfold readerRead at h
  split at h
  · rename_i hext
    cases hf : fs file with
    | none =>
      have : (Meth.zoom Prod.snd (fun fs s => (s.1, fs)) (openRead file) :
          Meth (ClassState K × FS) Text) (c, fs) = (.error .fileNotFound, (c, fs)) := by
        unfold Meth.zoom openRead
        simp only [hf]
      rw [Meth.bind_error this] at h
      cases h
    | some t =>
      have : (Meth.zoom Prod.snd (fun fs s => (s.1, fs)) (openRead file) :
          Meth (ClassState K × FS) Text) (c, fs) = (.ok t, (c, fs)) := by
        unfold Meth.zoom openRead
        simp only [hf]
      rw [Meth.bind_ok this] at h
      cases hd : parse t with
      | error e => rw [hd] at h; cases h
      | ok d =>
        rw [hd, Meth.lift_ok_bind, Meth.read_bind] at h
        cases hc : fromDict c d with
        | error e => rw [hc] at h; cases h
        | ok c' =>
          rw [hc] at h
          cases h
          obtain ⟨⟨a, ha, -⟩, -⟩ := from_dict_overwrites_class c c' d hc
            ⟨none, none, none, none, none, none, none, none, none, 0, none, none⟩ rfl
          refine ⟨rfl, rfl, hext, t, d, a, hf, hd, ha, fun o ho => ?_⟩
          obtain ⟨⟨b, hb, hb'⟩, -⟩ := from_dict_overwrites_class c c' d hc o ho
          rw [ha] at hb
          cases hb
          exact hb'
  · cases h

end

/-! ## C69: sampling for VTK -/

section
variable {K : Type} [Field K] [LinearOrder K] [IsStrictOrderedRing K] [FloorRing K]

/-- Sample `x` of the grid with `n + 1` values per direction. -/
def vtkRow (f : K → K → List K) (n x : ℕ) : List K :=
  let u := ((x / (n + 1) : ℕ) : K) / n
  let v := ((x % (n + 1) : ℕ) : K) / n
  f u v ++ [u, v]

/-- **C69.** The sampling loop fills exactly the `(n + 1)²` rows it has allocated: row
`i (n + 1) + j` is the surface point at `(i / n, j / n)` followed by these two parameters. -/
theorem vtk_samples_grid {single : K → K → Py (List K)} {f : K → K → List K} {n : ℕ} (hn : 1 ≤ n)
    (hf : ∀ i ≤ n, ∀ j ≤ n, single ((i : K) / n) ((j : K) / n) = .ok (f ((i : K) / n) ((j : K) / n)))
    (hl : ∀ u v, (f u v).length = 3) :
    vtkSamples single (n : ℤ) = .ok ((List.range ((n + 1) * (n + 1))).map (vtkRow f n)) := by
  have hn0 : (0 : K) < n := by exact_mod_cast hn
  unfold vtkSamples
  rw [Int.cast_natCast, pyDiv_ok hn0.ne', ok_bind]
  have hr : arange (0 : K) (1 + 1 / n) (1 / n)
      = (List.range (n + 1)).map fun (i : ℕ) => (i : K) / n := by
    unfold arange
    have e : ((1 + 1 / n : K) - 0) / (1 / n) = ((n + 1 : ℤ) : K) := by
      push_cast
      field_simp
      ring
    rw [e, Int.ceil_intCast]
    have : ((n : ℤ) + 1).toNat = n + 1 := by omega
    rw [this]
    refine List.map_congr_left fun i _ => ?_
    ring
  have hs : pyTrunc (((1 + 1 / n : K) - 0) * n) = n + 1 := by
    have e : ((1 + 1 / n : K) - 0) * n = ((n + 1 : ℤ) : K) := by
      push_cast
      field_simp
      ring
    unfold pyTrunc
    rw [e, if_pos (by positivity), Int.floor_intCast]
  dsimp only
  rw [hr, hs]
  have hz : (((n : ℤ) + 1) * ((n : ℤ) + 1)).toNat = (n + 1) * (n + 1) := by
    rw [show ((n : ℤ) + 1) * ((n : ℤ) + 1) = (((n + 1) * (n + 1) : ℕ) : ℤ) by push_cast; ring,
      Int.toNat_natCast]
  rw [hz, forL_map_range]
  have key := double_loop (n + 1) (n + 1) (w := 5) (vtkRow f n) (fun t => by simp [vtkRow, hl])
    (fun i j (st : List (List K) × ℕ) => do
      let q ← single ((i : K) / n) ((j : K) / n)
      let row := q ++ [(i : K) / n, (j : K) / n]
      let _ ← (if row.length = 5 then .ok () else .error .valueError : Py Unit)
      let spts ← pySet st.1 (st.2 : ℤ) row
      .ok (spts, st.2 + 1)) (by
    intro i j d hi hj hd
    dsimp only
    rw [hf i (by omega) j (by omega), ok_bind, if_pos (by simp [hl]), ok_bind,
      pySet_nat d _ (i * (n + 1) + j) _ rfl (by rw [hd.1]; exact index_lt hi hj), ok_bind]
    have e1 : (i * (n + 1) + j) / (n + 1) = i := by
      rw [Nat.mul_comm, Nat.mul_add_div (by omega), Nat.div_eq_of_lt hj, Nat.add_zero]
    have e2 : (i * (n + 1) + j) % (n + 1) = j := by
      rw [Nat.mul_comm, Nat.mul_add_mod, Nat.mod_eq_of_lt hj]
    unfold vtkRow
    rw [e1, e2])
  rw [forN_congr (g := fun i st => forN 0 (n + 1) st fun j (st : List (List K) × ℕ) => do
      let q ← single ((i : K) / n) ((j : K) / n)
      let row := q ++ [(i : K) / n, (j : K) / n]
      let _ ← (if row.length = 5 then .ok () else .error .valueError : Py Unit)
      let spts ← pySet st.1 (st.2 : ℤ) row
      .ok (spts, st.2 + 1)), key, ok_bind]
  intro i s _ hi
  rw [forL_map_range]

/-- **C69**, the parameters: all are in `[0, 1]`, the corners `(0, 0)` and `(1, 1)` are the first and
the last sample. -/
theorem vtk_params_range {f : K → K → List K} (hl : ∀ u v, (f u v).length = 3) {n : ℕ} (hn : 1 ≤ n) :
    (∀ row ∈ (List.range ((n + 1) * (n + 1))).map (vtkRow f n),
      (0 ≤ row.getD 3 0 ∧ row.getD 3 0 ≤ 1) ∧ 0 ≤ row.getD 4 0 ∧ row.getD 4 0 ≤ 1) ∧
    vtkRow f n 0 = f 0 0 ++ [0, 0] ∧ vtkRow f n ((n + 1) * (n + 1) - 1) = f 1 1 ++ [1, 1] := by
  have hn0 : (0 : K) < n := by exact_mod_cast hn
  refine ⟨fun row hrow => ?_, by simp [vtkRow], ?_⟩
  · obtain ⟨x, hx, rfl⟩ := List.mem_map.1 hrow
    have hx := List.mem_range.1 hx
    have h1 : x / (n + 1) ≤ n := Nat.lt_succ_iff.1 (Nat.div_lt_of_lt_mul hx)
    have h2 : x % (n + 1) ≤ n := Nat.lt_succ_iff.1 (Nat.mod_lt _ (by omega))
    have h1' : ((x / (n + 1) : ℕ) : K) ≤ n := by exact_mod_cast h1
    have h2' : ((x % (n + 1) : ℕ) : K) ≤ n := by exact_mod_cast h2
    have g : ∀ a b : K, (f a b ++ [a, b]).getD 3 0 = a ∧ (f a b ++ [a, b]).getD 4 0 = b := by
      intro a b
      have := hl a b
      constructor <;>
        rw [List.getD_eq_getElem?_getD, List.getElem?_append_right (by omega), this] <;> rfl
    unfold vtkRow
    dsimp only
    rw [(g _ _).1, (g _ _).2]
    exact ⟨⟨div_nonneg (Nat.cast_nonneg _) hn0.le, (div_le_one hn0).2 h1'⟩,
      div_nonneg (Nat.cast_nonneg _) hn0.le, (div_le_one hn0).2 h2'⟩
  · have e : (n + 1) * (n + 1) - 1 = n * (n + 1) + n := by
      rw [Nat.succ_mul]; omega
    have e1 : (n * (n + 1) + n) / (n + 1) = n := by
      rw [Nat.mul_comm, Nat.mul_add_div (by omega), Nat.div_eq_of_lt (by omega), Nat.add_zero]
    have e2 : (n * (n + 1) + n) % (n + 1) = n := by
      rw [Nat.mul_comm, Nat.mul_add_mod, Nat.mod_eq_of_lt (by omega)]
    unfold vtkRow
    rw [e, e1, e2, div_self hn0.ne']

/-- **C69** for a surface: every row is the tensor-product point at its parameters. -/
theorem vtk_samples_surface {s : Surface K} (hs : ClampedSurface s) {n : ℕ} (hn : 1 ≤ n)
    (ru : ∀ i ≤ n, Regular s.degreeU s.numU s.kvU ((i : K) / n))
    (rv : ∀ j ≤ n, Regular s.degreeV s.numV s.kvV ((j : K) / n)) :
    vtkSamples s.singlePoint (n : ℤ) = .ok ((List.range ((n + 1) * (n + 1))).map
      (vtkRow (fun u v => [s.value 0 u v, s.value 1 u v, s.value 2 u v]) n)) := by
  have hn0 : (0 : K) < n := by exact_mod_cast hn
  have hr : ∀ i ≤ n, 0 ≤ (i : K) / n ∧ (i : K) / n ≤ 1 := fun i hi =>
    ⟨div_nonneg (Nat.cast_nonneg _) hn0.le, (div_le_one hn0).2 (by exact_mod_cast hi)⟩
  exact vtk_samples_grid hn (fun i hi j hj =>
    surface_point_tensor_sum hs (hr i hi) (hr j hj) (ru i hi) (rv j hj)) fun _ _ => rfl

/-- `n_tri = 0` is a division by zero. -/
theorem vtk_samples_zero (single : K → K → Py (List K)) :
    vtkSamples single 0 = .error .nonfinite := by
  unfold vtkSamples
  rw [Int.cast_zero, pyDiv_zero rfl]
  rfl

end

/-! ## Concrete cases -/

/-- Prints and reads the numbers of the example only; everything else is printed as `?`. -/
def exFmt : Fmt ℚ where
  num x := if x = 0 then ['0'] else if x = 1 then ['1'] else if x = 1/2 then "0.5".toList else ['?']
  int z := if z = 1 then ['1'] else if z = 2 then ['2'] else if z = 4 then ['4'] else ['?']
  parseFloat t := if t = ['0'] then .ok 0 else if t = ['1'] then .ok 1
    else if t = "0.5".toList then .ok (1/2) else .error .valueError
  parseInt t := if t = ['1'] then .ok 1 else if t = ['2'] then .ok 2
    else if t = ['4'] then .ok 4 else .error .valueError

def exFile : Surface ℚ :=
  ⟨1, 1, 2, 2, [[0, 0, 0], [0, 1, 1/2], [1, 0, 0], [1, 1, 1]], [0, 0, 1, 1], [0, 0, 1, 1]⟩

/-- C64: the file as written cannot be read; C65: without the two trailing tabs it can. -/
example : (readSurf exFmt "s.txt" (writeSurface exFmt exFile "s.txt" fun _ => none).2).1
    = .error .valueError := by decide +kernel
example : (readSurf exFmt "s.txt" fun n => if n = "s.txt" then some (surfaceText exFmt [] exFile)
    else none).1 = .ok ⟨1, 1, 2, 2, [0, 0, 1, 1], [0, 0, 1, 1],
      [[0, 0, 0], [0, 1, 1/2], [1, 0, 0], [1, 1, 1]]⟩ := by decide +kernel
example : (writeSurface exFmt exFile "s.txt" fun _ => none).2 "s.txt"
    = some (surfaceText exFmt ['\t'] exFile) := by decide +kernel

/-- The assumption on the number format can be met: unary notation for the position in an enumeration
of the rationals. -/
theorem exists_fmt_ok : ∃ fm : Fmt ℚ, fm.Ok := by
  refine ⟨⟨fun x => List.replicate (Encodable.encode x + 1) 'x',
    fun z => List.replicate (Encodable.encode z) 'x',
    fun t => match t with
      | [] => .error .valueError
      | _ :: t => match Encodable.decode (α := ℚ) t.length with
        | some x => .ok x
        | none => .error .valueError,
    fun t => match Encodable.decode (α := ℤ) t.length with
        | some x => .ok x
        | none => .error .valueError⟩, ?_, ?_, ?_, ?_, ?_, ?_⟩
  · intro x ch hch
    rw [List.eq_of_mem_replicate hch]
    rfl
  · intro x ch hch
    rw [List.eq_of_mem_replicate hch]
    rfl
  · intro x h
    simp at h
  · intro x
    dsimp only
    rw [List.replicate_succ]
    dsimp only
    rw [List.length_replicate, Encodable.encodek]
  · intro z
    dsimp only
    rw [List.length_replicate, Encodable.encodek]
  · rfl

/-- Extensions. -/
example : extension "a.b.json" = ".json".toList ∧ extension "json" = [] ∧ extension ".json" = [] ∧
    extension "x." = ['.'] := by decide +kernel

/-- C68: the old contents are lost. -/
example (o : Obj ℚ) : (Writer.write (fun _ => .ok []) .fresh ⟨"c.json", o⟩
    fun n => if n = "c.json" then some "old".toList else none).2 "c.json" = some [] := by
  rw [(json_save_truncates _ _ ⟨"c.json", o⟩ _).1
    (show extension "c.json" = _ by decide +kernel)]
  rfl

/-- C88: the dictionary of `exDict`. -/
example : (readerRead (fun _ => .ok exDict) "c.json" (.fresh, fun _ => some [])).1 = .ok none := by
  decide +kernel

/-- C69 for two steps. -/
example : vtkSamples (fun u v : ℚ => .ok [u, v, u * v]) 2 = .ok [
    [0, 0, 0, 0, 0], [0, 1/2, 0, 0, 1/2], [0, 1, 0, 0, 1],
    [1/2, 0, 0, 1/2, 0], [1/2, 1/2, 1/4, 1/2, 1/2], [1/2, 1, 1/2, 1/2, 1],
    [1, 0, 0, 1, 0], [1, 1/2, 1/2, 1, 1/2], [1, 1, 1, 1, 1]] := by decide +kernel

end PySpline
