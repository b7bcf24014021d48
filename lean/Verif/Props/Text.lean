import Verif.Lemmas.Text
import Verif.Props.Globals

/-!
# The texts of the printed tables (C120, C121)
-/

namespace Acm.Props

open Acm.Spec

/-- The displayed values of a setting. -/
theorem items_chars {w p : ℕ} {ts : List (List Char)} {xs : List ℝ} (h : Items w p ts xs) : ∀ t ∈ ts, t ≠ [] ∧ ',' ∉ t := by
  intro t ht
  obtain ⟨i, hi, e⟩ := List.getElem_of_mem ht
  have hl := List.Forall₂.length_eq h
  have := (List.forall₂_iff_get.1 h).2 i hi (hl ▸ hi)
  obtain ⟨⟨q, hq, -⟩, -⟩ := this
  simp only [List.get_eq_getElem, e] at hq
  obtain ⟨h1, h2⟩ := decText_chars hq
  refine ⟨h1, fun hc => ?_⟩
  rcases h2 _ hc with h | h | h | h <;> revert h <;> decide

/-- C120.  The line of a table of eigenvalues: every value is written in decimal notation, correctly rounded to `rel_pre` decimals (ties to
even) and filled with blanks to `rel_wid` characters. -/
theorem C120_eigs (g : Glb) (w p : ℕ) (hw : g.rel_wid = w) (hp : g.rel_pre = p) (m d : List Char) (L : Int) (xs : List ℝ) :
    ∃ ts, (Shown.eigs L xs).text g m d = .ok (eigLine L ts) ∧ Items w p ts xs :=
  ⟨_, eigsText_eq hw hp L xs, items_ok w p xs⟩

example : Glb.init.rel_wid = (7 : ℕ) ∧ Glb.init.rel_pre = (2 : ℕ) := ⟨rfl, rfl⟩

/-- Correct rounding keeps the order. -/
theorem rounded_mono {t u : List Char} {p : ℕ} {x y q r : ℝ} (ht : Rounded t p x) (hu : Rounded u p y) (h : x ≤ y) (hq : DecText t p q)
    (hr : DecText u p r) : q ≤ r := by
  obtain ⟨q', hq', a1, a2⟩ := ht
  obtain ⟨r', hr', b1, b2⟩ := hu
  cases decText_unique hq hq'
  cases decText_unique hr hr'
  have h10 : (0 : ℝ) < 10 ^ p := by positivity
  have hint : ∀ {t q}, DecText t p q → ∃ m : ℤ, q = m / 10 ^ p := by
    rintro t q ⟨k, neg, whole, frac, -, -, -, -, e⟩
    refine ⟨(if neg then -1 else 1) * ((whole ++ frac).foldl (fun m c => 10 * m + (c.toNat - 48)) 0 : ℕ), ?_⟩
    rw [e]
    push_cast
    rfl
  obtain ⟨m, rfl⟩ := hint hq
  obtain ⟨n, rfl⟩ := hint hr
  rw [div_le_div_iff_of_pos_right h10]
  by_contra hc
  push Not at hc
  have hmn : (n : ℝ) + 1 ≤ m := by exact_mod_cast hc
  have hd : (n : ℝ) / 10 ^ p + 1 / 10 ^ p ≤ m / 10 ^ p := by
    rw [← add_div]
    exact (div_le_div_iff_of_pos_right h10).2 hmn
  have hh : (1 : ℝ) / 2 / 10 ^ p + 1 / 2 / 10 ^ p = 1 / 10 ^ p := by rw [← add_div]; norm_num
  have c1 := abs_le.1 a1
  have c2 := abs_le.1 b1
  have exy : x = y := by linarith [c1.1, c1.2, c2.1, c2.2]
  subst exy
  have e1 : (m : ℝ) / 10 ^ p - x = 1 / 2 / 10 ^ p := by linarith [c1.1, c1.2, c2.1, c2.2]
  have e2 : (n : ℝ) / 10 ^ p - x = -(1 / 2 / 10 ^ p) := by linarith [c1.1, c1.2, c2.1, c2.2]
  have hpos : (0 : ℝ) < 1 / 2 / 10 ^ p := by positivity
  obtain ⟨m', hm'⟩ := a2 (by rw [e1, abs_of_pos hpos])
  obtain ⟨n', hn'⟩ := b2 (by rw [e2, abs_neg, abs_of_pos hpos])
  have f1 : (m : ℝ) = 2 * m' := by
    have := (div_left_inj' h10.ne').1 hm'
    exact this
  have f2 : (n : ℝ) = 2 * n' := (div_left_inj' h10.ne').1 hn'
  have f3 : (m : ℝ) = n + 1 := by
    have : (m : ℝ) / 10 ^ p = (n + 1) / 10 ^ p := by
      rw [add_div]; linarith
    exact (div_left_inj' h10.ne').1 this
  have g1 : m = 2 * m' := by exact_mod_cast f1
  have g2 : n = 2 * n' := by exact_mod_cast f2
  have g3 : m = n + 1 := by exact_mod_cast f3
  omega

/-- C120.  The numbers written in the line of a table are in the same order as the values: rounding for the display never exchanges two
values, and equal values are written alike. -/
theorem C120_order (g : Glb) (w p : ℕ) (hw : g.rel_wid = w) (hp : g.rel_pre = p) (m d : List Char) (L : Int) (xs : List ℝ) :
    ∃ ts qs, (Shown.eigs L xs).text g m d = .ok (eigLine L ts) ∧ List.Forall₂ (fun t q => DecText t p q) ts qs ∧ qs.length = xs.length ∧
      ∀ (i j : ℕ) (hi : i < qs.length) (hj : j < qs.length) (hi' : i < xs.length) (hj' : j < xs.length), xs[i] ≤ xs[j] → qs[i] ≤ qs[j] := by
  refine ⟨_, xs.map (fixedValue p), eigsText_eq hw hp L xs, ?_, by simp, fun i j hi hj hi' hj' h => ?_⟩
  · clear hw hp
    induction xs with
    | nil => exact .nil
    | cons x xs ih => exact .cons (fixed_decText p _ x) ih
  · simp only [List.getElem_map]
    exact rounded_mono (itemText_rounded w p _) (itemText_rounded w p _) h (fixed_decText p _ _) (fixed_decText p _ _)

/-- C120.  A line of a table of eigenvalues can be read back: two lines with the same text belong to the same angular momentum and to equally
many values, which agree within one unit of the last decimal. -/
theorem C120_readback (g : Glb) (w p : ℕ) (hw : g.rel_wid = w) (hp : g.rel_pre = p) (m d t : List Char) (L M : Int) (xs ys : List ℝ)
    (hx : (Shown.eigs L xs).text g m d = .ok t) (hy : (Shown.eigs M ys).text g m d = .ok t) :
    L = M ∧ List.Forall₂ (fun x y => |x - y| ≤ 1 / 10 ^ p) xs ys := by
  obtain ⟨ts, h1, h2⟩ := C120_eigs g w p hw hp m d L xs
  obtain ⟨us, h3, h4⟩ := C120_eigs g w p hw hp m d M ys
  rw [hx] at h1
  rw [hy] at h3
  obtain ⟨e1, e2⟩ := eigLine_inj (items_chars h2) (items_chars h4) (Except.ok.inj (h1.symm.trans h3))
  refine ⟨e1, ?_⟩
  subst e2
  rw [List.forall₂_iff_get]
  have l1 := List.Forall₂.length_eq h2
  have l2 := List.Forall₂.length_eq h4
  refine ⟨l1.symm.trans l2, fun i hi hj => ?_⟩
  obtain ⟨⟨q, hq, a, -⟩, -⟩ := (List.forall₂_iff_get.1 h2).2 i (l1 ▸ hi) hi
  obtain ⟨⟨r, hr, b, -⟩, -⟩ := (List.forall₂_iff_get.1 h4).2 i (l1 ▸ hi) hj
  cases decText_unique hq hr
  have hh : (1 : ℝ) / 2 / 10 ^ p + 1 / 2 / 10 ^ p = 1 / 10 ^ p := by rw [← add_div]; norm_num
  have c1 := abs_le.1 a
  have c2 := abs_le.1 b
  rw [abs_le]
  constructor <;> linarith [c1.1, c1.2, c2.1, c2.2]

/-- C120.  The line of a rate or an amplitude, for any template with two fields and any template of transitions with four fields: the angular
momenta and indices stand in the order `L1, n1, L2, n2`, and the value is written as in the tables of eigenvalues. -/
theorem C120_mel (g : Glb) (w p : ℕ) (hw : g.rel_wid = w) (hp : g.rel_pre = p) (m0 m1 m2 l0 l1 l2 l3 l4 d : List Char)
    (hm : ∀ s ∈ [m0, m1, m2, l0, l1, l2, l3, l4], Plain s) (ht : g.tran_format.toList = template4 l0 l1 l2 l3 l4) (L1 n1 L2 n2 : Int) (x : ℝ) :
    ∃ t, (Shown.mel L1 n1 L2 n2 x).text g (template2 m0 m1 m2) d =
        .ok (m0 ++ (l0 ++ dec L1 ++ l1 ++ dec n1 ++ l2 ++ dec L2 ++ l3 ++ dec n2 ++ l4) ++ m1 ++ t ++ m2) ∧
      Rounded t p x ∧ Filled t w := by
  simp only [List.mem_cons, List.not_mem_nil, or_false, forall_eq_or_imp, forall_eq] at hm
  obtain ⟨a0, a1, a2, b0, b1, b2, b3, b4⟩ := hm
  refine ⟨_, (melText_eq hw hp (splits2_template a0 a1 a2) ht b0 b1 b2 b3 b4 L1 n1 L2 n2 x).trans ?_, itemText_rounded w p x,
    itemText_filled w p x⟩
  simp only [List.append_assoc]

example : (∀ s ∈ ["  B(E2: ".toList, ") = ".toList, [], [], "(".toList, ") -> ".toList, "(".toList, ")".toList], Plain s) ∧
    Glb.init.tran_format.toList = template4 [] "(".toList ") -> ".toList "(".toList ")".toList ∧
    Glb.init.rat_format.toList = template2 "  B(E2: ".toList ") = ".toList [] := by
  refine ⟨?_, rfl, rfl⟩
  intro s hs
  constructor <;> revert s <;> decide

/-- C120.  The line of a row of matrix elements, where the symbol `tran_fill` stands for the index of the initial states. -/
theorem C120_row (g : Glb) (w p : ℕ) (hw : g.rel_wid = w) (hp : g.rel_pre = p) (m0 m1 m2 l0 l1 l2 l3 l4 d : List Char)
    (hm : ∀ s ∈ [m0, m1, m2, l0, l1, l2, l3, l4, g.tran_fill.toList], Plain s) (ht : g.tran_format.toList = template4 l0 l1 l2 l3 l4)
    (L1 L2 n2 : Int) (xs : List ℝ) :
    ∃ ts, (Shown.row L1 L2 n2 xs).text g (template2 m0 m1 m2) d =
        .ok (m0 ++ (l0 ++ dec L1 ++ l1 ++ g.tran_fill.toList ++ l2 ++ dec L2 ++ l3 ++ dec n2 ++ l4) ++ m1 ++
          ("[".toList ++ commaLine ts ++ "]".toList) ++ m2) ∧ Items w p ts xs := by
  simp only [List.mem_cons, List.not_mem_nil, or_false, forall_eq_or_imp, forall_eq] at hm
  obtain ⟨a0, a1, a2, b0, b1, b2, b3, b4, c⟩ := hm
  refine ⟨_, (rowText_eq hw hp (splits2_template a0 a1 a2) ht b0 b1 b2 b3 b4 c L1 L2 n2 xs).trans ?_, items_ok w p xs⟩
  simp

example : Glb.init.tran_fill.toList = "#".toList ∧ Plain "#".toList := ⟨rfl, by constructor <;> decide⟩

/-- C120.  The heads of the tables give the lowest eigenvalue and the divisors with `low_pre` decimals. -/
theorem C120_head (g : Glb) (p : ℕ) (hp : g.low_pre = p) (m d : List Char) (low sft : ℝ) :
    ∃ a b, Rounded a p low ∧ Rounded b p sft ∧
      (Shown.eigHead (some low) sft).text g m d =
        .ok ("Lowest eigenvalue is ".toList ++ a ++ ". Relative eigenvalues follow (each divided by ".toList ++ b ++ "):".toList) ∧
      (Shown.eigHead none sft).text g m d = .ok ("Scaled eigenvalues follow (each divided by ".toList ++ b ++ ":".toList) ∧
      (Shown.melHead sft).text g m d = .ok ("Selected ".toList ++ d ++ " follow (each divided by ".toList ++ b ++ "):".toList) := by
  refine ⟨_, _, itemText_rounded 0 p low, itemText_rounded 0 p sft, ?_, ?_, ?_⟩
  · show eigHeadText g (some low) sft = _
    unfold eigHeadText
    simp only [format_low hp, py_bind_ok]
    refine congrArg Except.ok ?_
    simp [itemText]
  · show eigHeadText g none sft = _
    unfold eigHeadText
    simp only [format_low hp, py_bind_ok]
    refine congrArg Except.ok ?_
    simp [itemText]
  · show melHeadText g d sft = _
    unfold melHeadText
    simp only [format_low hp, py_bind_ok]
    refine congrArg Except.ok ?_
    simp [itemText]

example : Glb.init.low_pre = (4 : ℕ) := rfl

/-- C121 fails for the brackets: the head of a table of absolute eigenvalues opens a bracket and does not close it, whatever the settings
(the bracket is closed in the Maple source and in the head of a table of relative eigenvalues). -/
theorem C121_bracket_fails (g : Glb) (p : ℕ) (hp : g.low_pre = p) (m d : List Char) (low sft : ℝ) :
    occurs '(' ((Shown.eigHead none sft).text g m d) = some 1 ∧ occurs ')' ((Shown.eigHead none sft).text g m d) = some 0 ∧
    occurs '(' ((Shown.eigHead (some low) sft).text g m d) = some 1 ∧ occurs ')' ((Shown.eigHead (some low) sft).text g m d) = some 1 := by
  obtain ⟨a, b, ⟨q, hq, -⟩, ⟨r, hr, -⟩, h1, h2, -⟩ := C120_head g p hp m d low sft
  have key : ∀ {t p q}, DecText t p q → t.count '(' = 0 ∧ t.count ')' = 0 := by
    intro t p q h
    have := (decText_chars h).2
    constructor <;>
    · rw [List.count_eq_zero]
      intro hc
      rcases this _ hc with h | h | h | h <;> revert h <;> decide
  obtain ⟨a1, a2⟩ := key hq
  obtain ⟨b1, b2⟩ := key hr
  rw [h1, h2]
  simp only [occurs, Except.toOption, Option.map_some, List.count_append, a1, a2, b1, b2]
  decide

/-- C121 fails for general matrix elements: with the format `def_mel_format` every line contains a percent sign, left over from the Maple
format `  ME( %s ) = %s`. -/
theorem C121_percent_fails (g : Glb) (w p : ℕ) (hw : g.rel_wid = w) (hp : g.rel_pre = p)
    (ht : g.tran_format.toList = Glb.init.tran_format.toList) (d : List Char) (L1 n1 L2 n2 : Int) (x : ℝ) :
    ∃ t, (Shown.mel L1 n1 L2 n2 x).text g def_mel_format d =
        .ok ("  ME( %".toList ++ arrowLine (dec L1) (dec n1) (dec L2) (dec n2) ++ " ) = ".toList ++ t) ∧ Rounded t p x ∧ Filled t w := by
  refine ⟨_, (melText_eq hw hp splits2_mel (ht.trans tran4) plain_nil (by constructor <;> decide) (by constructor <;> decide)
    (by constructor <;> decide) (by constructor <;> decide) L1 n1 L2 n2 x).trans ?_, itemText_rounded w p x, itemText_filled w p x⟩
  simp [arrowLine]

/-- C121 fails for escaped braces: the templates are formatted twice, so that a format in which a brace is escaped as Python prescribes
raises when the line is printed. -/
theorem C121_escape_fails (d : List Char) (x : ℝ) :
    pyFormat "{{E2}} {} = {}".toList [.str "a".toList, .str "b".toList] = .ok "{E2} a = b".toList ∧
    (Shown.mel 2 1 0 1 x).text Glb.init "{{E2}} {} = {}".toList d = .error .keyError := by
  constructor
  · rfl
  · rfl

theorem rat_fit_text (g : Glb) (m0 m1 m2 l0 l1 l2 l3 l4 : List Char)
    (hm : ∀ s ∈ [m0, m1, m2, l0, l1, l2, l3, l4], Plain s) (ht : g.tran_format.toList = template4 l0 l1 l2 l3 l4)
    (hr : g.rat_format.toList = template2 m0 m1 m2) :
    ratFitText g = .ok (m0 ++ (l0 ++ dec g.rat_L1 ++ l1 ++ dec g.rat_1dx ++ l2 ++ dec g.rat_L2 ++ l3 ++ dec g.rat_2dx ++ l4) ++ m1 ++
        itemText 0 6 g.rat_fit ++ m2) := by
  simp only [List.mem_cons, List.not_mem_nil, or_false, forall_eq_or_imp, forall_eq] at hm
  obtain ⟨a0, a1, a2, b0, b1, b2, b3, b4⟩ := hm
  have hx : (do let f ← parseSpec [':', 'f'].tail; formatArg f (.flt g.rat_fit)) = .ok (itemText 0 6 g.rat_fit) := by
    refine congrArg Except.ok (show fltText ⟨false, false, 0, none, some 'f'⟩ g.rat_fit = _ from ?_)
    unfold fltText numText itemText
    by_cases h : g.rat_fit < 0 <;> simp [h]
  unfold ratFitText
  rw [ht, format4 b0 b1 b2 b3 b4, py_bind_ok, hr, format2 a0 a1 a2, py_bind_ok]
  have e : m0 ++ ((l0 ++ (numFormat ++ (l1 ++ (numFormat ++ (l2 ++ (numFormat ++ (l3 ++ (numFormat ++ l4)))))))) ++
      (m1 ++ ("{:f}".toList ++ m2))) = TSeg.render [.lit (m0 ++ l0), .fld [':', 'd'], .lit l1, .fld [':', 'd'], .lit l2,
        .fld [':', 'd'], .lit l3, .fld [':', 'd'], .lit (l4 ++ m1), .fld [':', 'f'], .lit m2] := by
    simp [TSeg.render, numFormat]
  rw [e, format_segs]
  · rw [eval_lit _ (m0 ++ l0) _ 0 (eval_fld _ [':', 'd'] _ 0 rfl (format_d g.rat_L1)
      (eval_lit _ l1 _ 1 (eval_fld _ [':', 'd'] _ 1 rfl (format_d g.rat_1dx) (eval_lit _ l2 _ 2 (eval_fld _ [':', 'd'] _ 2 rfl
      (format_d g.rat_L2) (eval_lit _ l3 _ 3 (eval_fld _ [':', 'd'] _ 3 rfl (format_d g.rat_2dx) (eval_lit _ (l4 ++ m1) _ 4
      (eval_fld _ [':', 'f'] _ 4 rfl hx (eval_lit _ m2 [] 5 rfl))))))))))]
    simp
  · have hd : Plain [':', 'd'] := by constructor <;> decide
    have hf : Plain [':', 'f'] := by constructor <;> decide
    simp [TSeg.Ok, plain_append a0 b0, b1, b2, b3, plain_append b4 a1, a2, hd, hf]

/-- C120.  The transition named by `ACM_set_rat_fit`, with six decimals. -/
theorem C120_rat_fit (g : Glb) (m0 m1 m2 l0 l1 l2 l3 l4 : List Char)
    (hm : ∀ s ∈ [m0, m1, m2, l0, l1, l2, l3, l4], Plain s) (ht : g.tran_format.toList = template4 l0 l1 l2 l3 l4)
    (hr : g.rat_format.toList = template2 m0 m1 m2) :
    ∃ t, ratFitText g = .ok (m0 ++ (l0 ++ dec g.rat_L1 ++ l1 ++ dec g.rat_1dx ++ l2 ++ dec g.rat_L2 ++ l3 ++ dec g.rat_2dx ++ l4) ++ m1 ++
        t ++ m2) ∧ Rounded t 6 g.rat_fit ∧ Filled t 0 := by
  exact ⟨itemText 0 6 g.rat_fit, rat_fit_text g m0 m1 m2 l0 l1 l2 l3 l4 hm ht hr, itemText_rounded 0 6 _, itemText_filled 0 6 _⟩

/-- What a template of integer fields gives. -/
theorem two_eval {f : List Char} {segs : List TSeg} {args : List Int} {s : List Char} (e : f = TSeg.render segs) (hs : ∀ t ∈ segs, t.Ok)
    (h : TSeg.eval (args.map FArg.int) segs 0 = .ok s) : pyFormat f (args.map FArg.int) = .ok s := by
  rw [e, format_segs hs, h]

/-- C120.  The two nested calls of `format` in `ACM_show_lst` give the lines of C47, for designators of every length. -/
theorem C120_lst (g : Glb) (ht : g.tran_format = Glb.init.tran_format) (ent : List Int) :
    showLstText g ent = .ok (show_lst_line ent) := by
  have hd : Plain [':', 'd'] := by constructor <;> decide
  have hp : Plain [':', '+', 'd'] := by constructor <;> decide
  have e : g.tran_format.toList = "{}({}) -> {}({})".toList := by rw [ht]; rfl
  have four : ∀ a b c d : Int, (do
      let f ← pyFormat g.tran_format.toList [.str numFormat, .str numFormat, .str numFormat, .str numFormat]
      let s ← pyFormat f ([a, b, c, d].map FArg.int)
      pure (some s) : Py (Option (List Char))) = .ok (some (arrowLine (dec a) (dec b) (dec c) (dec d))) := by
    intro a b c d
    rw [e, tran_segs, py_bind_ok, two_eval (f := arrowLine numFormat numFormat numFormat numFormat) (args := [a, b, c, d]) (segs := [.fld [':', 'd'], .lit "(".toList, .fld [':', 'd'], .lit ") -> ".toList, .fld [':', 'd'],
      .lit "(".toList, .fld [':', 'd'], .lit ")".toList]) rfl ?_ (eval_fld _ [':', 'd'] _ 0 rfl (format_d a) (eval_lit _ _ _ 1
        (eval_fld _ [':', 'd'] _ 1 rfl (format_d b) (eval_lit _ _ _ 2 (eval_fld _ [':', 'd'] _ 2 rfl (format_d c) (eval_lit _ _ _ 3
        (eval_fld _ [':', 'd'] _ 3 rfl (format_d d) (eval_lit _ _ [] 4 rfl))))))))]
    · refine congrArg Except.ok ?_
      simp [arrowLine]
    · intro s hs
      simp only [List.mem_cons, List.not_mem_nil, or_false] at hs
      rcases hs with rfl | rfl | rfl | rfl | rfl | rfl | rfl | rfl <;> simp only [TSeg.Ok] <;> first
        | exact ⟨hd, .inr ⟨_, rfl⟩⟩
        | (constructor <;> decide)
  match ent with
  | [] =>
    show (do
      let f ← pyFormat g.tran_format.toList _
      pure (some f) : Py (Option (List Char))) = _
    rw [e, tran_segs]
    rfl
  | [a] =>
    show (do
      let f ← pyFormat g.tran_format.toList _
      let s ← pyFormat f ([a].map FArg.int)
      pure (some s) : Py (Option (List Char))) = _
    rw [e, tran_segs, py_bind_ok, two_eval (f := arrowLine "L_i".toList "j_i".toList numFormat "j_f".toList) (args := [a]) (segs := [.lit "L_i(j_i) -> ".toList, .fld [':', 'd'], .lit "(j_f)".toList]) rfl ?_
      (eval_lit _ _ _ 0 (eval_fld _ [':', 'd'] _ 0 rfl (format_d a) (eval_lit _ _ [] 1 rfl)))]
    · refine congrArg Except.ok ?_
      simp [show_lst_line, tranLine, pyStr_eq_dec]
    · intro s hs
      simp only [List.mem_cons, List.not_mem_nil, or_false] at hs
      rcases hs with rfl | rfl | rfl <;> simp only [TSeg.Ok] <;> first
        | exact ⟨hd, .inr ⟨_, rfl⟩⟩
        | (constructor <;> decide)
  | [a, b] =>
    show (do
      let f ← pyFormat g.tran_format.toList _
      let s ← pyFormat f ([a, b].map FArg.int)
      pure (some s) : Py (Option (List Char))) = _
    rw [e, tran_segs, py_bind_ok, two_eval (f := arrowLine numFormat "j_i".toList numFormat "j_f".toList) (args := [a, b]) (segs := [.fld [':', 'd'], .lit "(j_i) -> ".toList, .fld [':', 'd'], .lit "(j_f)".toList]) rfl ?_
      (eval_fld _ [':', 'd'] _ 0 rfl (format_d a) (eval_lit _ _ _ 1 (eval_fld _ [':', 'd'] _ 1 rfl (format_d b) (eval_lit _ _ [] 2 rfl))))]
    · refine congrArg Except.ok ?_
      simp [show_lst_line, tranLine, pyStr_eq_dec]
    · intro s hs
      simp only [List.mem_cons, List.not_mem_nil, or_false] at hs
      rcases hs with rfl | rfl | rfl | rfl <;> simp only [TSeg.Ok] <;> first
        | exact ⟨hd, .inr ⟨_, rfl⟩⟩
        | (constructor <;> decide)
  | [a, b, c] =>
    show (do
      let f ← pyFormat g.tran_format.toList _
      let s ← pyFormat f ([a, b, c].map FArg.int)
      pure (some s) : Py (Option (List Char))) = _
    rw [e, tran_segs, py_bind_ok, two_eval (f := arrowLine numFormat "j_i".toList numFormat numFormat) (args := [a, b, c]) (segs := [.fld [':', 'd'], .lit "(j_i) -> ".toList, .fld [':', 'd'], .lit "(".toList,
      .fld [':', 'd'], .lit ")".toList]) rfl ?_
      (eval_fld _ [':', 'd'] _ 0 rfl (format_d a) (eval_lit _ _ _ 1 (eval_fld _ [':', 'd'] _ 1 rfl (format_d b) (eval_lit _ _ _ 2
      (eval_fld _ [':', 'd'] _ 2 rfl (format_d c) (eval_lit _ _ [] 3 rfl))))))]
    · refine congrArg Except.ok ?_
      simp [show_lst_line, tranLine, pyStr_eq_dec]
    · intro s hs
      simp only [List.mem_cons, List.not_mem_nil, or_false] at hs
      rcases hs with rfl | rfl | rfl | rfl | rfl | rfl <;> simp only [TSeg.Ok] <;> first
        | exact ⟨hd, .inr ⟨_, rfl⟩⟩
        | (constructor <;> decide)
  | [a, b, c, d] =>
    refine (four a b c d).trans (congrArg Except.ok ?_)
    simp [show_lst_line, tranLine, arrowLine, pyStr_eq_dec]
  | [a, b, c, d, k] =>
    by_cases hk : k = 0
    · subst hk
      refine (four a b c d).trans (congrArg Except.ok ?_)
      simp [show_lst_line, tranLine, arrowLine, pyStr_eq_dec]
    · have : showLstText g [a, b, c, d, k] = (do
          let f ← pyFormat g.tran_format.toList [.str "{:d}{:+d}k".toList, .str numFormat, .str "{:d}{:+d}k".toList, .str numFormat]
          let s ← pyFormat f ([a, k, c, b, k, d].map FArg.int)
          pure (some s) : Py (Option (List Char))) := by
        unfold showLstText
        simp only
        rw [if_pos hk]
      rw [this, e, tran_segs, py_bind_ok, two_eval (f := arrowLine "{:d}{:+d}k".toList numFormat "{:d}{:+d}k".toList numFormat) (args := [a, k, c, b, k, d]) (segs := [.fld [':', 'd'], .fld [':', '+', 'd'], .lit "k(".toList, .fld [':', 'd'],
        .lit ") -> ".toList, .fld [':', 'd'], .fld [':', '+', 'd'], .lit "k(".toList, .fld [':', 'd'], .lit ")".toList]) rfl ?_
        (eval_fld _ [':', 'd'] _ 0 rfl (format_d a) (eval_fld _ [':', '+', 'd'] _ 1 rfl (format_plus k) (eval_lit _ _ _ 2
        (eval_fld _ [':', 'd'] _ 2 rfl (format_d c) (eval_lit _ _ _ 3 (eval_fld _ [':', 'd'] _ 3 rfl (format_d b)
        (eval_fld _ [':', '+', 'd'] _ 4 rfl (format_plus k) (eval_lit _ _ _ 5 (eval_fld _ [':', 'd'] _ 5 rfl (format_d d)
        (eval_lit _ _ [] 6 rfl))))))))))]
      · refine congrArg Except.ok ?_
        simp [show_lst_line, tranLine, pyStr_eq_dec, pyStrSigned_eq, hk]
      · intro s hs
        simp only [List.mem_cons, List.not_mem_nil, or_false] at hs
        rcases hs with rfl | rfl | rfl | rfl | rfl | rfl | rfl | rfl | rfl | rfl <;> simp only [TSeg.Ok] <;> first
          | exact ⟨hd, .inr ⟨_, rfl⟩⟩
          | exact ⟨hp, .inr ⟨_, rfl⟩⟩
          | (constructor <;> decide)
  | a :: b :: c :: d :: k :: f :: l => rfl

example : showLstText Glb.init [4, 2, 1, 1, -2] = .ok (some "4-2k(1) -> 2-2k(1)".toList) := by
  rw [C120_lst Glb.init rfl]
  decide

/-- No procedure changes the template of transitions. -/
theorem tran_kept (fmt : String → Py Unit) (cs : List GCall) :
    (runGCalls fmt cs Glb.init).tran_format = Glb.init.tran_format ∧ (runGCalls fmt cs Glb.init).tran_fill = Glb.init.tran_fill := by
  refine Preserves.run (P := fun g : Glb => g.tran_format = Glb.init.tran_format ∧ g.tran_fill = Glb.init.tran_fill) cs
    (fun c _ => exec_keeps' fmt ?_ (fun _ _ _ h => h) (fun _ _ h => h) (fun _ _ h => h) c) ⟨rfl, rfl⟩
  constructor <;> intros <;> assumption

/-- C120.  After any history of calls of the setting procedures no line raises when it is printed, if the format has two fields and plain text. -/
theorem C120_session (fmt : String → Py Unit) (cs : List GCall) (m0 m1 m2 : List Char) (h0 : Plain m0) (h1 : Plain m1) (h2 : Plain m2)
    (d : List Char) (s : Shown) : ∃ t, s.text (runGCalls fmt cs Glb.init) (template2 m0 m1 m2) d = .ok t := by
  have hr := C44_ranges_partial fmt cs
  obtain ⟨k1, k2⟩ := tran_kept fmt cs
  set g := runGCalls fmt cs Glb.init
  obtain ⟨w, hw⟩ := Int.eq_ofNat_of_zero_le hr.rel_wid
  obtain ⟨p, hp⟩ := Int.eq_ofNat_of_zero_le hr.rel_pre
  obtain ⟨l, hl⟩ := Int.eq_ofNat_of_zero_le hr.low_pre
  have ht : g.tran_format.toList = template4 [] "(".toList ") -> ".toList "(".toList ")".toList := by rw [k1]; rfl
  have q1 : Plain "(".toList := by constructor <;> decide
  have q2 : Plain ") -> ".toList := by constructor <;> decide
  have q3 : Plain ")".toList := by constructor <;> decide
  have q4 : Plain g.tran_fill.toList := by rw [k2]; constructor <;> decide
  cases s with
  | eigHead low sft =>
    obtain ⟨a, b, -, -, e1, e2, -⟩ := C120_head g l hl (template2 m0 m1 m2) d (low.getD 0) sft
    cases low with
    | none => exact ⟨_, e2⟩
    | some low => exact ⟨_, e1⟩
  | eigs L xs => exact ⟨_, eigsText_eq hw hp L xs⟩
  | melHead sft =>
    obtain ⟨a, b, -, -, -, -, e3⟩ := C120_head g l hl (template2 m0 m1 m2) d 0 sft
    exact ⟨_, e3⟩
  | bad ent => exact ⟨_, rfl⟩
  | mel L1 n1 L2 n2 x => exact ⟨_, melText_eq hw hp (splits2_template h0 h1 h2) ht plain_nil q1 q2 q1 q3 L1 n1 L2 n2 x⟩
  | row L1 L2 n2 xs => exact ⟨_, rowText_eq hw hp (splits2_template h0 h1 h2) ht plain_nil q1 q2 q1 q3 q4 L1 L2 n2 xs⟩

theorem no_brackets {t : List Char} (h : ∀ c ∈ t, c = ' ' ∨ c = '-' ∨ c = '.' ∨ c.isDigit = true) : t.count '(' = 0 ∧ t.count ')' = 0 := by
  constructor <;>
  · rw [List.count_eq_zero]
    intro hc
    rcases h _ hc with h | h | h | h <;> revert h <;> decide

theorem dec_brackets (n : Int) : (dec n).count '(' = 0 ∧ (dec n).count ')' = 0 :=
  no_brackets fun c hc => (dec_chars n c hc).elim (fun h => .inr (.inl h)) fun h => .inr (.inr (.inr h))

theorem rounded_brackets {t : List Char} {p : ℕ} {x : ℝ} (h : Rounded t p x) : t.count '(' = 0 ∧ t.count ')' = 0 := by
  obtain ⟨q, hq, -⟩ := h
  exact no_brackets (decText_chars hq).2

theorem items_brackets (w p : ℕ) (xs : List ℝ) : (commaLine (xs.map (itemText w p))).count '(' = 0 ∧
    (commaLine (xs.map (itemText w p))).count ')' = 0 := by
  induction xs with
  | nil => exact ⟨rfl, rfl⟩
  | cons x xs ih =>
    obtain ⟨a, b⟩ := rounded_brackets (itemText_rounded w p x)
    cases xs with
    | nil => exact ⟨a, b⟩
    | cons y ys =>
      have e : commaLine ((x :: y :: ys).map (itemText w p)) = itemText w p x ++ ',' :: commaLine ((y :: ys).map (itemText w p)) := rfl
      rw [e]
      simp only [List.count_append, List.count_cons, a, b, ih]
      decide

theorem bad_brackets (ent : List Int) : (badText ent).count '(' = 0 ∧ (badText ent).count ')' = 0 := by
  have key : ∀ c : Char, (∀ n : Int, (dec n).count c = 0) → (", ".toList).count c = 0 → ∀ l : List Int,
      ((", ".toList).intercalate (l.map pyStr)).count c = 0 := by
    intro c hc hs l
    unfold List.intercalate
    induction l with
    | nil => rfl
    | cons a l ih =>
      cases l with
      | nil =>
        have := hc a
        simpa [pyStr_eq_dec] using this
      | cons b l =>
        rw [List.map_cons, List.map_cons, List.intersperse_cons_cons, List.flatten_cons, List.flatten_cons, List.count_append,
          List.count_append, pyStr_eq_dec, hc, hs]
        simpa using ih
  unfold badText
  constructor
  · rw [List.count_append, List.count_cons, List.count_append, key _ (fun n => (dec_brackets n).1) (by decide)]
    decide
  · rw [List.count_append, List.count_cons, List.count_append, key _ (fun n => (dec_brackets n).2) (by decide)]
    decide

/-- C121.  After any history of calls of the setting procedures every line except the head of a table of absolute eigenvalues has as many
opening as closing brackets, if the format and the designation have.  Missing: that head, see `C121_bracket_fails`. -/
theorem C121_balanced_partial (fmt : String → Py Unit) (cs : List GCall) (m0 m1 m2 : List Char) (h0 : Plain m0) (h1 : Plain m1)
    (h2 : Plain m2) (hm : Bracketed (m0 ++ m1 ++ m2)) (d : List Char) (hd : Bracketed d) (s : Shown) (hs : ∀ x, s ≠ .eigHead none x) :
    ∃ t, s.text (runGCalls fmt cs Glb.init) (template2 m0 m1 m2) d = .ok t ∧ Bracketed t := by
  have hr := C44_ranges_partial fmt cs
  obtain ⟨k1, k2⟩ := tran_kept fmt cs
  set g := runGCalls fmt cs Glb.init
  obtain ⟨w, hw⟩ := Int.eq_ofNat_of_zero_le hr.rel_wid
  obtain ⟨p, hp⟩ := Int.eq_ofNat_of_zero_le hr.rel_pre
  obtain ⟨l, hl⟩ := Int.eq_ofNat_of_zero_le hr.low_pre
  have ht : g.tran_format.toList = template4 [] "(".toList ") -> ".toList "(".toList ")".toList := by rw [k1]; rfl
  have q1 : Plain "(".toList := by constructor <;> decide
  have q2 : Plain ") -> ".toList := by constructor <;> decide
  have q3 : Plain ")".toList := by constructor <;> decide
  have q4 : Plain g.tran_fill.toList := by rw [k2]; constructor <;> decide
  have c1 : ("(".toList).count '(' = 1 ∧ ("(".toList).count ')' = 0 ∧ (") -> ".toList).count '(' = 0 ∧ (") -> ".toList).count ')' = 1 ∧
      (")".toList).count '(' = 0 ∧ (")".toList).count ')' = 1 := by decide
  obtain ⟨c1, c2, c3, c4, c5, c6⟩ := c1
  have c7 : g.tran_fill.toList.count '(' = 0 ∧ g.tran_fill.toList.count ')' = 0 := by rw [k2]; decide
  unfold Bracketed at hm hd
  simp only [List.count_append] at hm
  cases s with
  | eigHead low sft =>
    cases low with
    | none => exact absurd rfl (hs sft)
    | some low =>
      obtain ⟨a, b, ha, hb, e1, -, -⟩ := C120_head g l hl (template2 m0 m1 m2) d low sft
      refine ⟨_, e1, ?_⟩
      unfold Bracketed
      simp only [List.count_append, rounded_brackets ha, rounded_brackets hb]
      decide
  | eigs L xs =>
    refine ⟨_, eigsText_eq hw hp L xs, ?_⟩
    unfold Bracketed
    simp only [List.count_append, dec_brackets, items_brackets, List.count_replicate]
    rfl
  | melHead sft =>
    obtain ⟨a, b, ha, hb, -, -, e3⟩ := C120_head g l hl (template2 m0 m1 m2) d 0 sft
    refine ⟨_, e3, ?_⟩
    unfold Bracketed
    simp only [List.count_append, rounded_brackets hb, hd]
    have : ("Selected ".toList).count '(' = 0 ∧ ("Selected ".toList).count ')' = 0 ∧ (" follow (each divided by ".toList).count '(' = 1 ∧
      (" follow (each divided by ".toList).count ')' = 0 ∧ ("):".toList).count '(' = 0 ∧ ("):".toList).count ')' = 1 := by decide
    omega
  | bad ent => exact ⟨_, rfl, (bad_brackets ent).1.trans (bad_brackets ent).2.symm⟩
  | mel L1 n1 L2 n2 x =>
    refine ⟨_, melText_eq hw hp (splits2_template h0 h1 h2) ht plain_nil q1 q2 q1 q3 L1 n1 L2 n2 x, ?_⟩
    unfold Bracketed
    simp only [List.count_append, dec_brackets, rounded_brackets (itemText_rounded w p x), List.count_nil, c1, c2, c3, c4, c5, c6]
    omega
  | row L1 L2 n2 xs =>
    refine ⟨_, rowText_eq hw hp (splits2_template h0 h1 h2) ht plain_nil q1 q2 q1 q3 q4 L1 L2 n2 xs, ?_⟩
    unfold Bracketed
    simp only [List.count_append, List.count_cons, dec_brackets, items_brackets, List.count_nil, c1, c2, c3, c4, c5, c6, c7]
    simp
    omega

example : Bracketed ("  B(E2: ".toList ++ ") = ".toList ++ []) ∧ Bracketed "transition rates".toList := by
  constructor <;> (unfold Bracketed; decide)

end Acm.Props
