import Verif.Lemmas.CGData
import Verif.Props.CGSO5

/-!
# Properties of the text of the SO5CG data files and of the directory dictionaries: C80
-/

namespace Acm.Props

open Acm Acm.Spec

/-- A `float` for the examples: it reads the text `0.5` only. -/
noncomputable def exampleFloat : FloatSyntax := fun s => if s = ['0', '.', '5'] then some (1 / 2) else none

/-! ## Lines -/

/-- C80.  Reading a line: `parse_line` returns the coefficient `x` and the label exactly when the
line consists of ten fields, the first being the text of `x` and the others of the nine integers of the
label, with any amount of white space between and around them. -/
theorem C80_line (float : FloatSyntax) (line : List Char) (x : ℝ) (v1 a1 L1 v2 a2 L2 v3 a3 L3 : Int) :
    parse_line float line = .ok (x, (v1, a1, L1), (v2, a2, L2), (v3, a3, L3)) ↔
      ∃ c ds, LineOf (c :: ds) line ∧ float c = some x ∧
        List.Forall₂ IntText ds [v1, a1, L1, v2, a2, L2, v3, a3, L3] := by
  constructor
  · intro h
    by_cases hl : (pySplit (pyStrip line)).length = 10
    · obtain ⟨c, ds, hs, hd⟩ := list_ten hl
      obtain ⟨hx, hz⟩ := (parse_line_ten hs hd _ _).1 h
      refine ⟨c, ds, ?_, hx, hz⟩
      rw [← hs]
      refine lineOf_split line fun e => ?_
      rw [e] at hl
      simp [pySplit, pySplitAux] at hl
    · rw [parse_line_short hl] at h
      cases h
  · rintro ⟨c, ds, hl, hx, hz⟩
    exact (parse_line_ten (split_strip_lineOf hl) hz.length_eq _ _).2 ⟨hx, hz⟩

/-- C80.  A line that is not of this form raises `ValueError`, and no other exception is possible. -/
theorem C80_line_rejects (float : FloatSyntax) (line : List Char)
    (h : ¬ ∃ c ds x ns, LineOf (c :: ds) line ∧ float c = some x ∧ List.Forall₂ IntText ds ns ∧
      ns.length = 9) :
    parse_line float line = .error .valueError := by
  rcases parse_line_val float line with ⟨⟨x, ⟨v1, a1, L1⟩, ⟨v2, a2, L2⟩, v3, a3, L3⟩, hy⟩ | hy
  · obtain ⟨c, ds, h1, h2, h3⟩ := (C80_line float line x _ _ _ _ _ _ _ _ _).1 hy
    exact absurd ⟨c, ds, x, _, h1, h2, h3, rfl⟩ h
  · exact hy

/-- A line with two fields is not a line of a data file. -/
example : parse_line exampleFloat "0.5 1\n".toList = .error .valueError := by
  refine C80_line_rejects _ _ fun ⟨c, ds, x, ns, h1, h2, h3, h4⟩ => ?_
  match ns, h4 with
  | [v1, a1, L1, v2, a2, L2, v3, a3, L3], _ =>
    have := (C80_line exampleFloat "0.5 1\n".toList x v1 a1 L1 v2 a2 L2 v3 a3 L3).2 ⟨c, ds, h1, h2, h3⟩
    have h : pySplit (pyStrip "0.5 1\n".toList) = [['0', '.', '5'], ['1']] := by decide +kernel
    unfold parse_line at this
    rw [h] at this
    simp at this

/-- C80.  In particular a printed line is read back: the coefficient's text and nine integers as Python
prints them, each followed by at least one blank and the line by a newline. -/
theorem C80_printed (float : FloatSyntax) (c : List Char) (x : ℝ) (hx : float c = some x)
    (v1 a1 L1 v2 a2 L2 v3 a3 L3 : Int) (line : List Char)
    (hl : LineOf (c :: [v1, a1, L1, v2, a2, L2, v3, a3, L3].map pyStr) line) :
    parse_line float line = .ok (x, (v1, a1, L1), (v2, a2, L2), (v3, a3, L3)) := by
  refine (C80_line float line x _ _ _ _ _ _ _ _ _).2 ⟨c, _, hl, hx, ?_⟩
  rw [List.forall₂_map_left_iff, List.forall₂_same]
  exact fun n _ => intText_pyStr n

/-- A line as it is printed, with the fields separated by one blank. -/
example : LineOf (['0', '.', '5'] :: [1, 1, 2].map pyStr) "0.5 1 1 2\n".toList := by
  have hb : ∀ c ∈ [' '], Blank c := by unfold Blank; decide
  have h1 : IsField ['1'] := ⟨by simp, by unfold Blank; decide⟩
  refine ⟨[], "0.5 1 1 2".toList, ['\n'], by simp, by unfold Blank; decide, ?_, by decide⟩
  exact .cons ['0', '.', '5'] [' '] [['1'], ['1'], ['2']] _ ⟨by simp, by unfold Blank; decide⟩ (by simp) hb
    (.cons ['1'] [' '] [['1'], ['2']] _ h1 (by simp) hb (.cons ['1'] [' '] [['2']] _ h1 (by simp) hb
      (.one ['2'] ⟨by simp, by unfold Blank; decide⟩)))

/-- The texts of integers determine them. -/
theorem C80_int_unique (s : List Char) (m n : Int) (hm : IntText s m) (hn : IntText s n) : m = n := by
  have h := (pyInt_iff s m).2 hm
  rw [(pyInt_iff s n).2 hn] at h
  injection h with h
  exact h.symm

/-- Integers with signs and with an underscore. -/
example : IntText ['-', '1', '_', '2'] (-12) ∧ IntText ['+', '0', '7'] 7 := by
  rw [← pyInt_iff, ← pyInt_iff]
  exact ⟨rfl, rfl⟩

/-- A line with leading blanks, several blanks between the fields, a tab and a newline. -/
example : parse_line exampleFloat "  0.5   1    1    2\t    2    1    2      3    1   12\n".toList =
    .ok (1 / 2, (1, 1, 2), (2, 1, 2), (3, 1, 12)) := by
  have h : pySplit (pyStrip "  0.5   1    1    2\t    2    1    2      3    1   12\n".toList) =
      ['0', '.', '5'] :: [['1'], ['1'], ['2'], ['2'], ['1'], ['2'], ['3'], ['1'], ['1', '2']] := by
    decide +kernel
  refine (parse_line_ten h rfl _ _).2 ⟨by simp [exampleFloat], ?_⟩
  have hi : List.Forall₂ (fun s n => pyInt s = .ok n)
      [['1'], ['1'], ['2'], ['2'], ['1'], ['2'], ['3'], ['1'], ['1', '2']] [1, 1, 2, 2, 1, 2, 3, 1, 12] := by
    repeat' constructor
  exact hi.imp fun s n h => (pyInt_iff s n).1 h

/-- C80.  `readdata_float` (used by the Clebsch-Gordan tables) reads the coefficient column
of every file that `load_datafile` reads. -/
theorem C80_column (float : FloatSyntax) (lines : List (List Char)) (ls : List (ℝ × CoeffLabel))
    (h : load_datafile float lines = .ok ls) : readdata_lines float lines = .ok (ls.map Prod.fst) := by
  unfold load_datafile at h
  rw [mapM_ok_iff] at h
  unfold readdata_lines
  rw [mapM_ok_iff]
  induction h with
  | nil => exact .nil
  | @cons line y _ _ hy _ ih =>
    refine .cons ?_ ih
    obtain ⟨x, ⟨v1, a1, L1⟩, ⟨v2, a2, L2⟩, v3, a3, L3⟩ := y
    obtain ⟨c, ds, h1, h2, h3⟩ := (C80_line float line x _ _ _ _ _ _ _ _ _).1 hy
    unfold parse_line_float
    simp only [split_strip_lineOf h1, pyGet_zero, py_bind_ok]
    exact pyFloat_ok.2 h2

/-- C80.  `load_datafile` gives one entry per line, in the order of the lines, and fails with
`ValueError` as soon as one line cannot be read. -/
theorem C80_file (float : FloatSyntax) (lines : List (List Char)) :
    (∃ ls, load_datafile float lines = .ok ls ∧
      List.Forall₂ (fun line y => parse_line float line = .ok y) lines ls) ∨
    (load_datafile float lines = .error .valueError ∧
      ∃ line ∈ lines, parse_line float line = .error .valueError) := by
  unfold load_datafile
  rcases mapM_val lines (parse_line_val float) with ⟨ls, h⟩ | h
  · exact Or.inl ⟨ls, h, mapM_ok_iff.1 h⟩
  · refine Or.inr ⟨h, ?_⟩
    by_contra hc
    have hok : ∀ line ∈ lines, ∃ y, parse_line float line = .ok y := fun line hl => by
      rcases parse_line_val float line with hy | hy
      · exact hy
      · exact absurd ⟨line, hl, hy⟩ hc
    have : ∃ ys, lines.mapM (parse_line float) = .ok ys := by
      clear h hc
      induction lines with
      | nil => exact ⟨_, rfl⟩
      | cons a l ih =>
        obtain ⟨y, hy⟩ := hok a (by simp)
        obtain ⟨ys, hys⟩ := ih fun b hb => hok b (by simp [hb])
        exact ⟨y :: ys, by rw [List.mapM_cons, hy, py_bind_ok, hys]; rfl⟩
    obtain ⟨ys, hys⟩ := this
    rw [hys] at h
    cases h

/-- C80.  The dictionary of a file: the coefficient found for a label is that of the last line with
the label, and a label without a line is not found. -/
theorem C80_dict (float : FloatSyntax) (lines : List (List Char)) (ls : List (ℝ × CoeffLabel))
    (h : load_datafile float lines = .ok ls) :
    ∃ d, datafile_dict float lines = .ok d ∧
      (∀ l x, d l = some x ↔ LastFor (ls.map Prod.swap) l x) ∧
      (∀ l, d l = none ↔ ∀ y ∈ ls, y.2 ≠ l) := by
  have he : (fun line : ℝ × CoeffLabel => (line.2, line.1)) = Prod.swap := rfl
  refine ⟨dictOf (ls.map Prod.swap), ?_, fun l x => dictOf_last _ _ _, fun l => ?_⟩
  · unfold datafile_dict
    rw [h, py_bind_ok, he]
    rfl
  · constructor
    · intro hn y hy e
      obtain ⟨w, hw⟩ := exists_lastFor (l := ls.map Prod.swap) (k := l) (v := y.1)
        (List.mem_map.2 ⟨y, hy, by rw [← e]; rfl⟩)
      rw [(dictOf_last _ _ _).2 hw] at hn
      cases hn
    · intro hn
      cases hd : dictOf (ls.map Prod.swap) l with
      | none => rfl
      | some w =>
        obtain ⟨y, hy, e⟩ := List.mem_map.1 (lastFor_mem ((dictOf_last _ _ _).1 hd))
        refine absurd ?_ (hn y hy)
        rw [show l = y.swap.1 by rw [e]]
        rfl

/-- C80.  The two readers of the data agree: if the lines of a data file carry the documented labels in
the documented order, then `CG_SO5r3` (which ignores the labels in the file) returns, after any history of
calls, the coefficient that `datafile_dict` finds under the full label. -/
theorem C80_same_coefficient (float : FloatSyntax) (text : List Char → Option (List (List Char)))
    (home : List Char) (dir : Option (List Char)) (cs : List CGCall)
    (v1 a1 L1 v2 a2 L2 v3 a3 L3 : ℕ) (h : CG5Rules v1 a1 L1 v2 a2 L2 v3 a3 L3)
    (hv : v1 ≤ v3) (h2 : 0 < v2) (path : List Char) (lines : List (List Char))
    (hp : SO5CG_filename (FileSys.ofText float text home) (CGState.start dir) (v1, v2, a2, L2, v3) = .ok path)
    (ht : text path = some lines) (ls : List (ℝ × CoeffLabel)) (hls : load_datafile float lines = .ok ls)
    (labels : List Quartet) (hl : CGLines v1 L2 v3 labels)
    (hlab : ls.map Prod.snd = labels.map fun q => (((v1 : Int), q.1, q.2.1), ((v2 : Int), (a2 : Int), (L2 : Int)),
      ((v3 : Int), q.2.2.1, q.2.2.2))) :
    ∃ d x, datafile_dict float lines = .ok d ∧
      d (((v1 : Int), (a1 : Int), (L1 : Int)), ((v2 : Int), (a2 : Int), (L2 : Int)), ((v3 : Int), (a3 : Int), (L3 : Int)))
        = some x ∧
      (CG_SO5r3 (FileSys.ofText float text home) (v1, a1, L1) (v2, a2, L2) (v3, a3, L3)
        (runCGCalls (FileSys.ofText float text home) cs (CGState.start dir))).1 = .ok x := by
  have hf : (FileSys.ofText float text home).readdata path = some (ls.map Prod.fst) := by
    unfold FileSys.ofText
    simp only [ht, Option.bind_some, C80_column float lines ls hls]
    rfl
  have hlen : labels.length = ls.length := by
    have := congrArg List.length hlab
    simpa using this.symm
  obtain ⟨i, x, hi, hx, hc⟩ := C52_lookup (FileSys.ofText float text home) dir cs v1 a1 L1 v2 a2 L2 v3 a3 L3
    h hv h2 _ path hp hf labels hl (by simp [hlen])
  obtain ⟨d, hd, hd1, -⟩ := C80_dict float lines ls hls
  refine ⟨d, x, hd, ?_, hc⟩
  have hd' : d = dictOf (ls.map Prod.swap) := by
    have : datafile_dict float lines = .ok (dictOf (ls.map Prod.swap)) := by
      unfold datafile_dict; rw [hls, py_bind_ok]; rfl
    rw [this] at hd
    injection hd with hd
    exact hd.symm
  have hnd : labels.Nodup := hl.2.imp fun {a b} hab e => by
    subst e
    unfold CGLineLT at hab
    omega
  have hli : ls[i]? = some (x, (((v1 : Int), (a1 : Int), (L1 : Int)), ((v2 : Int), (a2 : Int), (L2 : Int)),
      ((v3 : Int), (a3 : Int), (L3 : Int)))) := by
    have e1 : (ls.map Prod.snd)[i]? = some (((v1 : Int), (a1 : Int), (L1 : Int)),
        ((v2 : Int), (a2 : Int), (L2 : Int)), ((v3 : Int), (a3 : Int), (L3 : Int))) := by
      rw [hlab, List.getElem?_map, hi]; rfl
    rw [List.getElem?_map] at e1 hx
    cases hy : ls[i]? with
    | none => rw [hy] at hx; simp at hx
    | some y =>
      rw [hy] at hx e1
      simp only [Option.map_some, Option.some.injEq] at hx e1
      rw [← hx, ← e1]
  rw [hd']
  refine dictOf_found (List.mem_map.2 ⟨_, List.mem_of_getElem? hli, rfl⟩) fun w hw => ?_
  obtain ⟨y, hy, ey⟩ := List.mem_map.1 hw
  obtain ⟨j, hj⟩ := List.mem_iff_getElem?.1 hy
  have e1 : (ls.map Prod.snd)[j]? = (ls.map Prod.snd)[i]? := by
    rw [List.getElem?_map, List.getElem?_map, hj, hli]
    simp only [Option.map_some, Option.some.injEq]
    exact congrArg Prod.fst ey
  have hinj : (ls.map Prod.snd).Nodup := by
    rw [hlab]
    refine hnd.map ?_
    rintro ⟨p1, p2, p3, p4⟩ ⟨q1, q2, q3, q4⟩ e
    simp only [Prod.mk.injEq, true_and] at e
    obtain ⟨⟨rfl, rfl⟩, rfl, rfl⟩ := e
    rfl
  have hjl : j < (ls.map Prod.snd).length := by
    rw [List.length_map]; exact (List.getElem?_eq_some_iff.1 hj).1
  obtain rfl := (List.getElem?_inj hjl hinj).1 e1
  rw [hli] at hj
  injection hj with hj
  rw [← hj] at ey
  exact (congrArg Prod.snd ey).symm

/-- The two lines of the data file of `(1, 1, 1, 2, 2)`, with coefficient `0.5` in both. -/
def exampleLines : List (List Char) :=
  ["0.5      1    1    2      1    1    2      2    1    2\n".toList,
    "0.5      1    1    2      1    1    2      2    1    4\n".toList]

/-- They carry the documented labels in the documented order. -/
example : ∃ ls labels, load_datafile exampleFloat exampleLines = .ok ls ∧ CGLines 1 2 2 labels ∧
    CG5Rules 1 1 2 1 1 2 2 1 4 ∧
    ls.map Prod.snd = labels.map fun q => ((1, q.1, q.2.1), (1, 1, 2), (2, q.2.2.1, q.2.2.2)) := by
  refine ⟨[(1 / 2, (1, 1, 2), (1, 1, 2), (2, 1, 2)), (1 / 2, (1, 1, 2), (1, 1, 2), (2, 1, 4))], cgLabels 1 2 2,
    mapM_ok_iff.2 (.cons ?_ (.cons ?_ .nil)), cgLines_cgLabels 1 2 2, ?_, ?_⟩
  · have h : pySplit (pyStrip "0.5      1    1    2      1    1    2      2    1    2\n".toList) =
        ['0', '.', '5'] :: [['1'], ['1'], ['2'], ['1'], ['1'], ['2'], ['2'], ['1'], ['2']] := by
      decide +kernel
    refine (parse_line_ten h rfl _ _).2 ⟨by simp [exampleFloat], ?_⟩
    have hi : List.Forall₂ (fun s n => pyInt s = .ok n)
        [['1'], ['1'], ['2'], ['1'], ['1'], ['2'], ['2'], ['1'], ['2']] [1, 1, 2, 1, 1, 2, 2, 1, 2] := by
      repeat' constructor
    exact hi.imp fun s n h => (pyInt_iff s n).1 h
  · have h : pySplit (pyStrip "0.5      1    1    2      1    1    2      2    1    4\n".toList) =
        ['0', '.', '5'] :: [['1'], ['1'], ['2'], ['1'], ['1'], ['2'], ['2'], ['1'], ['4']] := by
      decide +kernel
    refine (parse_line_ten h rfl _ _).2 ⟨by simp [exampleFloat], ?_⟩
    have hi : List.Forall₂ (fun s n => pyInt s = .ok n)
        [['1'], ['1'], ['2'], ['1'], ['1'], ['2'], ['2'], ['1'], ['4']] [1, 1, 2, 1, 1, 2, 2, 1, 4] := by
      repeat' constructor
    exact hi.imp fun s n h => (pyInt_iff s n).1 h
  · unfold CG5Rules Triangle IsState; decide +kernel
  · simp only [List.map_cons, List.map_nil]
    decide +kernel

/-! ## Directories -/

/-- C80.  Whatever the three levels of dictionaries contain is a file of the directory tree whose name, and the names of
the two directories above it, spell the keys; no key is `None`. -/
theorem C80_tree_sound (base : Node) (k1 : Option Int) (k2 : Option (Int × Int × Int)) (k3 : Option Quintet)
    (d1 : PyDict (Option (Int × Int × Int)) (PyDict (Option Quintet) Node)) (d2 : PyDict (Option Quintet) Node)
    (n : Node) (h1 : base_dict base k1 = some d1) (h2 : d1 k2 = some d2) (h3 : d2 k3 = some n) :
    ∃ p1 p2 p3 es1 es2 ls v2 t q, (p1, Node.dir es1) ∈ base.entries ∧ (p2, Node.dir es2) ∈ es1 ∧
      (p3, n) ∈ es2 ∧ n = Node.file ls ∧
      k1 = some v2 ∧ k2 = some t ∧ k3 = some q ∧
      parse_dir1_name p1 = some v2 ∧ parse_dir2_name p2 = some t ∧ parse_datafile_name p3 = some q := by
  obtain ⟨⟨p1, n1⟩, m1, e1⟩ := List.mem_map.1 (lastFor_mem ((dictOf_last _ _ _).1 h1))
  simp only [Prod.mk.injEq] at e1
  obtain ⟨e1, rfl⟩ := e1
  obtain ⟨⟨p2, n2⟩, m2, e2⟩ := List.mem_map.1 (lastFor_mem ((dictOf_last _ _ _).1 h2))
  simp only [Prod.mk.injEq] at e2
  obtain ⟨e2, rfl⟩ := e2
  obtain ⟨⟨p3, n3⟩, m3, e3⟩ := List.mem_map.1 (lastFor_mem ((dictOf_last _ _ _).1 h3))
  simp only [Prod.mk.injEq] at e3
  obtain ⟨e3, rfl⟩ := e3
  obtain ⟨m1, c1⟩ := List.mem_filter.1 m1
  obtain ⟨m2, c2⟩ := List.mem_filter.1 m2
  obtain ⟨m3, c3⟩ := List.mem_filter.1 m3
  unfold is_dir1_path at c1
  unfold is_dir2_path at c2
  unfold is_datafile_path at c3
  simp only [Bool.and_eq_true] at c1 c2 c3
  cases n1 with
  | file l => simp [Node.isFile] at c1
  | dir es1 =>
  cases n2 with
  | file l => simp [Node.isFile] at c2
  | dir es2 =>
  cases n3 with
  | dir l => simp [Node.isFile] at c3
  | file ls =>
  obtain ⟨v2, hv⟩ := Option.isSome_iff_exists.1 c1.2
  obtain ⟨t, ht⟩ := Option.isSome_iff_exists.1 c2.2
  obtain ⟨q, hq⟩ := Option.isSome_iff_exists.1 c3.2
  exact ⟨p1, p2, p3, es1, es2, ls, v2, t, q, m1, m2, m3, rfl, by rw [← e1, hv], by rw [← e2, ht],
    by rw [← e3, hq], hv, ht, hq⟩

/-- C80.  The data file of a quintet, stored under the names `SO5CG_filename` uses, is found under the keys `v2`,
`(v1, v2, v3)`, `(v1, v2, a2, L2, v3)`, provided no other entry of the same three directories spells the same
numbers. -/
theorem C80_tree_complete (base : Node) (v1 v2 a2 L2 v3 : ℕ) (es1 es2 : List (List Char × Node))
    (lines : List (List Char))
    (h1 : (dir1_name v2, Node.dir es1) ∈ base.entries)
    (h2 : (dir2_name v1 v2 v3, Node.dir es2) ∈ es1)
    (h3 : (datafile_name (v1, v2, a2, L2, v3), Node.file lines) ∈ es2)
    (u1 : ∀ p ∈ base.entries, parse_dir1_name p.1 = some (v2 : Int) → p = (dir1_name v2, Node.dir es1))
    (u2 : ∀ p ∈ es1, parse_dir2_name p.1 = some ((v1 : Int), (v2 : Int), (v3 : Int)) →
      p = (dir2_name v1 v2 v3, Node.dir es2))
    (u3 : ∀ p ∈ es2, parse_datafile_name p.1 = some ((v1 : Int), (v2 : Int), (a2 : Int), (L2 : Int), (v3 : Int)) →
      p = (datafile_name (v1, v2, a2, L2, v3), Node.file lines)) :
    ∃ d1 d2, base_dict base (some (v2 : Int)) = some d1 ∧
      d1 (some ((v1 : Int), (v2 : Int), (v3 : Int))) = some d2 ∧
      d2 (some ((v1 : Int), (v2 : Int), (a2 : Int), (L2 : Int), (v3 : Int))) = some (Node.file lines) := by
  refine ⟨dir1_dict (.dir es1), dir2_dict (.dir es2), ?_, ?_, ?_⟩
  · refine dictOf_found (List.mem_map.2 ⟨_, List.mem_filter.2 ⟨h1, ?_⟩, ?_⟩) ?_
    · simp [is_dir1_path, Node.isFile, parse_dir1_name_ok]
    · simp [parse_dir1_name_ok]
    · intro w hw
      obtain ⟨p, hp, e⟩ := List.mem_map.1 hw
      simp only [Prod.mk.injEq] at e
      rw [u1 p (List.mem_filter.1 hp).1 e.1] at e
      exact e.2.symm
  · refine dictOf_found (List.mem_map.2 ⟨_, List.mem_filter.2 ⟨h2, ?_⟩, ?_⟩) ?_
    · simp [is_dir2_path, Node.isFile, parse_dir2_name_ok]
    · simp [parse_dir2_name_ok]
    · intro w hw
      obtain ⟨p, hp, e⟩ := List.mem_map.1 hw
      simp only [Prod.mk.injEq] at e
      rw [u2 p (List.mem_filter.1 hp).1 e.1] at e
      exact e.2.symm
  · refine dictOf_found (List.mem_map.2 ⟨_, List.mem_filter.2 ⟨h3, ?_⟩, ?_⟩) ?_
    · simp [is_datafile_path, Node.isFile, parse_datafile_name_ok]
    · simp [parse_datafile_name_ok]
    · intro w hw
      obtain ⟨p, hp, e⟩ := List.mem_map.1 hw
      simp only [Prod.mk.injEq] at e
      rw [u3 p (List.mem_filter.1 hp).1 e.1] at e
      exact e.2.symm

/-- A directory tree as in the data set: one file and one other entry at the top. -/
def exampleTree : Node :=
  .dir [("README".toList, .file []), (dir1_name 2, .dir [(dir2_name 1 2 3, .dir
    [(datafile_name (1, 2, 1, 4, 3), .file ["0.5".toList])])])]

example : ((base_dict exampleTree (some 2)).bind fun d => (d (some (1, 2, 3))).bind fun d =>
    d (some (1, 2, 1, 4, 3))) = some (.file ["0.5".toList]) := by
  obtain ⟨d1, d2, h1, h2, h3⟩ := C80_tree_complete exampleTree 1 2 1 4 3 _ _ _
    (List.mem_cons_of_mem _ (List.mem_singleton.2 rfl)) (List.mem_singleton.2 rfl) (List.mem_singleton.2 rfl)
    (fun p hp h => by
      rcases List.mem_cons.1 hp with rfl | hp
      · exact absurd h (by decide +kernel)
      · exact List.mem_singleton.1 hp)
    (fun p hp _ => List.mem_singleton.1 hp) (fun p hp _ => List.mem_singleton.1 hp)
  have h1' : base_dict exampleTree (some 2) = some d1 := h1
  have h2' : d1 (some (1, 2, 3)) = some d2 := h2
  rw [h1', Option.bind_some, h2', Option.bind_some]
  exact h3

/-- C80.  Without that proviso a file can be hidden: of two directories `v2=3` and `v2=03` only the one
listed last is in the dictionary, although the tables read the first. -/
theorem C80_tree_shadow :
    let a : Node := .dir [(dir2_name 1 3 2, .dir [])]
    let b : Node := .dir []
    ((base_dict (.dir [("v2=3".toList, a), ("v2=03".toList, b)]) (some 3)).bind fun d =>
      d (some (1, 3, 2))).isSome = false ∧
    ((base_dict (.dir [("v2=03".toList, b), ("v2=3".toList, a)]) (some 3)).bind fun d =>
      d (some (1, 3, 2))).isSome = true := by
  decide +kernel

/-! ## Display -/

/-- C80.  `show_CG_file` prints the number of values in the data file, then the label and the value of
every line, in the documented order; it leaves the tables alone. -/
theorem C80_show (fs : FileSys) (s : CGState) (v1 v2 a2 L2 v3 : ℕ) (ht : Triangle v1 v2 v3)
    (he : Even (v1 + v2 + v3)) (hv : v1 ≤ v3) (ha : IsState v2 a2 L2) (path : List Char)
    (hp : SO5CG_filename fs s (v1, v2, a2, L2, v3) = .ok path) (xs : List ℝ)
    (hf : fs.readdata path = some xs) (labels : List Quartet) (hl : CGLines v1 L2 v3 labels) :
    ∃ out, (show_CG_file fs (v1, v2, a2, L2, v3) s).1 =
        .ok (.count xs.length (decide (xs.length ≠ 1)) :: out) ∧
      out.length = min xs.length labels.length ∧
      (∀ (i : ℕ) (x : ℝ) (l : Quartet), xs[i]? = some x → labels[i]? = some l → out[i]? = some (.entry l x)) ∧
      (show_CG_file fs (v1, v2, a2, L2, v3) s).2.CG_coeffs = s.CG_coeffs := by
  obtain rfl : labels = cgLabels v1 L2 v3 := cgLines_unique hl (cgLines_cgLabels v1 L2 v3)
  have hq : QuintetOk ((v1 : Int), (v2 : Int), (a2 : Int), (L2 : Int), (v3 : Int)) :=
    ⟨by simp, by simp, by have := ha.1; simp only; omega, by simp, by simp⟩
  have hg : get_CG_file fs ((v1 : Int), (v2 : Int), (a2 : Int), (L2 : Int), (v3 : Int)) s =
      (.ok (xs, cgLabels v1 L2 v3), { s with reads := s.reads ++ [path] }) := by
    unfold get_CG_file
    simp only
    rw [require_SO5Quintet_ok hq, st_lift_ok, dimSO5r3_ok, st_lift_ok]
    rw [if_neg]
    · rw [hp, st_lift_ok, st_bind]
      unfold readdata_float
      rw [hf]
      simp only
      rw [CG_labels_ok (by simp) (by simp) (by simp), st_lift_ok]
      rfl
    · unfold Triangle at ht
      unfold IsState at ha
      rw [Nat.even_iff] at he
      simp only [is_odd_iff, dimV_eq_branching]
      omega
  refine ⟨(xs.zip (cgLabels v1 L2 v3)).map fun x => CGPrint.entry x.2 x.1, ?_, by simp, ?_, ?_⟩
  · unfold show_CG_file
    rw [require_SO5Quintet_ok hq, st_lift_ok, st_bind, hg]
    simp only
    by_cases h1 : xs.length = 1
    · rw [if_pos h1]; simp [h1]
    · rw [if_neg h1]; simp [h1]
  · intro i x l hx hi
    rw [List.getElem?_map, List.getElem?_zip_eq_some (z := (x, l)) |>.2 ⟨hx, hi⟩]
    rfl
  · unfold show_CG_file
    rw [require_SO5Quintet_ok hq, st_lift_ok, st_bind, hg]
    simp only
    split_ifs <;> rfl

/-- The hypotheses of C80_show are met. -/
example (s : CGState) : ∃ out, (show_CG_file exampleFS (1, 1, 1, 2, 2) s).1 = .ok (.count 100 true :: out) ∧
    out.length = 2 := by
  obtain ⟨out, h1, h2, _⟩ := C80_show exampleFS s 1 1 1 2 2 (by unfold Triangle; decide) (by decide) (by decide)
    (by unfold IsState; decide +kernel) _ rfl (List.replicate 100 0) rfl _ (cgLines_cgLabels 1 2 2)
  refine ⟨out, ?_, ?_⟩
  · rw [List.length_replicate] at h1; exact h1
  · rw [h2, List.length_replicate, show (cgLabels (1 : ℕ) (2 : ℕ) (2 : ℕ)).length = 2 by decide +kernel]; rfl

/-- C80.  Where there is no data file of these labels, `show_CG_file` raises `ValueError` without reading anything. -/
theorem C80_show_rejects (fs : FileSys) (s : CGState) (v1 v2 a2 L2 v3 : ℕ)
    (h : ¬ (Triangle v1 v2 v3 ∧ Even (v1 + v2 + v3) ∧ v1 ≤ v3 ∧ IsState v2 a2 L2)) :
    show_CG_file fs (v1, v2, a2, L2, v3) s = (.error .valueError, s) := by
  unfold show_CG_file
  by_cases ha : 1 ≤ a2
  · have hq : QuintetOk ((v1 : Int), (v2 : Int), (a2 : Int), (L2 : Int), (v3 : Int)) :=
      ⟨by simp, by simp, by simp only; omega, by simp, by simp⟩
    rw [require_SO5Quintet_ok hq, st_lift_ok, st_bind]
    unfold get_CG_file
    simp only
    rw [require_SO5Quintet_ok hq, st_lift_ok, dimSO5r3_ok, st_lift_ok, if_pos]
    · rfl
    · unfold Triangle IsState at h
      rw [Nat.even_iff] at h
      simp only [is_odd_iff, dimV_eq_branching]
      omega
  · rw [require_SO5Quintet_err (by rintro ⟨-, -, h3, -⟩; simp only at h3; omega)]
    rfl

/-- Both cases occur. -/
example : (Triangle 1 2 3 ∧ Even (1 + 2 + 3) ∧ 1 ≤ 3 ∧ IsState 2 1 4) ∧
    ¬ (Triangle 3 2 1 ∧ Even (3 + 2 + 1) ∧ 3 ≤ 1 ∧ IsState 2 1 4) := by
  unfold Triangle IsState; decide +kernel

end Acm.Props
