import Verif.Model.CGData
import Verif.Spec.CGData
import Verif.Lemmas.CGSO5
import Verif.Lemmas.CGFiles
import Verif.Lemmas.SO5Prod

/-!
# Lemmas on the text of the SO5CG data files
-/

namespace Acm

open Acm.Spec

theorem isPySpace_iff (c : Char) : isPySpace c = true ↔ Blank c := by
  unfold isPySpace Blank
  simp only [decide_eq_true_eq, List.mem_cons, List.not_mem_nil, or_false]
  omega

theorem isPySpace_false {c : Char} (h : ¬ Blank c) : isPySpace c = false := by
  rw [← isPySpace_iff] at h; simpa using h

/-! ### splitting -/

theorem pySplitAux_field (f : List Char) (hf : ∀ c ∈ f, ¬ Blank c) (b : Bool) (cur rest : List Char)
    (h0 : f ≠ []) :
    pySplitAux b cur (f ++ rest) = pySplitAux false (cur ++ f) rest := by
  induction f generalizing b cur with
  | nil => exact absurd rfl h0
  | cons c f ih =>
    rw [List.cons_append, pySplitAux, isPySpace_false (hf c (by simp))]
    simp only [Bool.false_eq_true, if_false]
    by_cases hn : f = []
    · subst hn; rfl
    · rw [ih (fun d hd => hf d (by simp [hd])) _ _ hn]
      simp

theorem pySplitAux_blank (w : List Char) (hw : ∀ c ∈ w, Blank c) (cur rest : List Char) :
    pySplitAux true cur (w ++ rest) = pySplitAux true cur rest := by
  induction w with
  | nil => rfl
  | cons c w ih =>
    rw [List.cons_append, pySplitAux, (isPySpace_iff c).2 (hw c (by simp))]
    simp only [if_true]
    exact ih fun d hd => hw d (by simp [hd])

theorem pySplitAux_sep (w : List Char) (hw : ∀ c ∈ w, Blank c) (h0 : w ≠ []) (cur rest : List Char) :
    pySplitAux false cur (w ++ rest) = cur :: pySplitAux true [] rest := by
  cases w with
  | nil => exact absurd rfl h0
  | cons c w =>
    rw [List.cons_append, pySplitAux, (isPySpace_iff c).2 (hw c (by simp))]
    simp only [if_true, Bool.false_eq_true, if_false]
    rw [pySplitAux_blank w fun d hd => hw d (by simp [hd])]

theorem pySplitAux_written {fs : List (List Char)} {core : List Char} (h : Written fs core)
    (b : Bool) : pySplitAux b [] core = fs := by
  induction h generalizing b with
  | one f hf =>
    have := pySplitAux_field f hf.2 b [] [] hf.1
    rw [List.append_nil] at this
    rw [this]; rfl
  | cons f w fs rest hf h0 hw _ ih =>
    rw [List.append_assoc, pySplitAux_field f hf.2 b [] _ hf.1, pySplitAux_sep w hw h0, ih]
    rfl

theorem dropWhile_blank (w rest : List Char) (hw : ∀ c ∈ w, Blank c) :
    (w ++ rest).dropWhile isPySpace = rest.dropWhile isPySpace :=
  List.dropWhile_append_of_pos fun c hc => (isPySpace_iff c).2 (hw c hc)

theorem written_head {fs : List (List Char)} {core : List Char} (h : Written fs core) :
    ∃ c t, core = c :: t ∧ ¬ Blank c := by
  have : ∀ f rest : List Char, IsField f → ∃ c t, f ++ rest = c :: t ∧ ¬ Blank c := by
    intro f rest hf
    cases f with
    | nil => exact absurd rfl hf.1
    | cons c f => exact ⟨c, f ++ rest, rfl, hf.2 c (by simp)⟩
  cases h with
  | one f hf => obtain ⟨c, t, e, h⟩ := this core [] hf; exact ⟨c, t, by simpa using e, h⟩
  | cons f w fs rest hf h0 hw _ => rw [List.append_assoc]; exact this f _ hf

theorem written_last {fs : List (List Char)} {core : List Char} (h : Written fs core) :
    ∃ c t, core = t ++ [c] ∧ ¬ Blank c := by
  induction h with
  | one f hf =>
    refine ⟨f.getLast hf.1, f.dropLast, (List.dropLast_append_getLast hf.1).symm, ?_⟩
    exact hf.2 _ (List.getLast_mem _)
  | cons f w fs rest hf h0 hw _ ih =>
    obtain ⟨c, t, e, h⟩ := ih
    exact ⟨c, f ++ w ++ t, by rw [e]; simp, h⟩

theorem pyStrip_lineOf {core lead trail : List Char} {fs : List (List Char)}
    (hl : ∀ c ∈ lead, Blank c) (ht : ∀ c ∈ trail, Blank c) (h : Written fs core) :
    pyStrip (lead ++ core ++ trail) = core := by
  unfold pyStrip
  rw [List.append_assoc, dropWhile_blank _ _ hl]
  obtain ⟨c, t, e, hc⟩ := written_head h
  obtain ⟨d, u, e', hd⟩ := written_last h
  have h1 : (core ++ trail).dropWhile isPySpace = core ++ trail := by
    rw [e, List.cons_append, List.dropWhile_cons, isPySpace_false hc]; rfl
  rw [h1, List.reverse_append, dropWhile_blank _ _ (fun x hx => ht x (List.mem_reverse.1 hx))]
  have h2 : core.reverse.dropWhile isPySpace = core.reverse := by
    rw [e', List.reverse_append, List.reverse_singleton, List.singleton_append, List.dropWhile_cons,
      isPySpace_false hd]; rfl
  rw [h2, List.reverse_reverse]

theorem split_strip_lineOf {fs : List (List Char)} {line : List Char} (h : LineOf fs line) :
    pySplit (pyStrip line) = fs := by
  obtain ⟨lead, core, trail, hl, ht, hw, rfl⟩ := h
  rw [pyStrip_lineOf hl ht hw]
  exact pySplitAux_written hw false

/-! ### every line that is not blank is written by its fields -/

theorem blank_takeWhile (s : List Char) : ∀ c ∈ s.takeWhile isPySpace, Blank c := by
  intro c hc
  induction s with
  | nil => simp at hc
  | cons x xs ih =>
    rw [List.takeWhile_cons] at hc
    split_ifs at hc with hx
    · rcases List.mem_cons.1 hc with rfl | h2
      · exact (isPySpace_iff _).1 hx
      · exact ih h2
    · simp at hc

theorem strip_decomp (s : List Char) :
    ∃ lead trail, (∀ c ∈ lead, Blank c) ∧ (∀ c ∈ trail, Blank c) ∧ s = lead ++ pyStrip s ++ trail := by
  refine ⟨s.takeWhile isPySpace,
    ((s.dropWhile isPySpace).reverse.takeWhile isPySpace).reverse, blank_takeWhile s,
    fun c hc => blank_takeWhile _ c (List.mem_reverse.1 hc), ?_⟩
  unfold pyStrip
  rw [List.append_assoc, ← List.reverse_append, List.takeWhile_append_dropWhile, List.reverse_reverse,
    List.takeWhile_append_dropWhile]

/-- A string not ending in white space is written by the fields `pySplitAux` gives. -/
theorem written_of_split (s : List Char) : ∀ (b : Bool) (cur : List Char),
    (∀ c ∈ cur, ¬ Blank c) → (∀ t c, s = t ++ [c] → ¬ Blank c) → (s = [] → cur ≠ []) →
    (b = true → cur = []) →
    (b = false → (∃ c t, s = c :: t ∧ Blank c) → cur ≠ []) →
    ∃ w core, (∀ c ∈ w, Blank c) ∧ (b = false → w = []) ∧
      Written (pySplitAux b cur s) core ∧ cur ++ s = w ++ core := by
  induction s with
  | nil =>
    intro b cur hc _ h0 hb _
    have hcur := h0 rfl
    refine ⟨[], cur, by simp, fun _ => rfl, ?_, by simp⟩
    rw [pySplitAux]
    exact .one _ ⟨hcur, hc⟩
  | cons c s ih =>
    intro b cur hc hl _ hb hbl
    have hl' : ∀ t d, s = t ++ [d] → ¬ Blank d := fun t d e => hl (c :: t) d (by rw [e]; rfl)
    rw [pySplitAux]
    by_cases hs : Blank c
    · have hne : s ≠ [] := fun e => hl [] c (by rw [e]; rfl) hs
      rw [(isPySpace_iff c).2 hs]
      simp only [if_true]
      obtain ⟨w, core, hw, -, hwr, e⟩ := ih true [] (by simp) hl' (fun e => absurd e hne)
        (fun _ => rfl) (by simp)
      cases b with
      | true =>
        simp only [if_true]
        rw [hb rfl]
        refine ⟨c :: w, core, ?_, by simp, hwr, ?_⟩
        · intro d hd
          rcases List.mem_cons.1 hd with rfl | hd
          exacts [hs, hw d hd]
        · simp only [List.nil_append] at e ⊢
          rw [e]; rfl
      | false =>
        simp only [Bool.false_eq_true, if_false]
        have hcur := hbl rfl ⟨c, s, rfl, hs⟩
        refine ⟨[], cur ++ (c :: w) ++ core, by simp, fun _ => rfl,
          .cons _ _ _ _ ⟨hcur, hc⟩ (by simp) ?_ hwr, ?_⟩
        · intro d hd
          rcases List.mem_cons.1 hd with rfl | hd
          exacts [hs, hw d hd]
        · simp only [List.nil_append] at e ⊢
          rw [e]; simp
    · rw [isPySpace_false hs]
      simp only [Bool.false_eq_true, if_false]
      obtain ⟨w, core, hw, hwn, hwr, e⟩ := ih false (cur ++ [c])
        (by
          intro d hd
          rcases List.mem_append.1 hd with hd | hd
          · exact hc d hd
          · rw [List.mem_singleton.1 hd]; exact hs)
        hl' (by simp) (by simp) (by simp)
      refine ⟨w, core, hw, fun _ => hwn rfl, hwr, ?_⟩
      rw [← e]; simp

theorem strip_last (s t : List Char) (c : Char) (h : pyStrip s = t ++ [c]) : ¬ Blank c := by
  unfold pyStrip at h
  have h' : (s.dropWhile isPySpace).reverse.dropWhile isPySpace = c :: t.reverse := by
    rw [← List.reverse_reverse (List.dropWhile _ _), h]; simp
  have := List.head?_dropWhile_not isPySpace (s.dropWhile isPySpace).reverse
  rw [h'] at this
  simp only [List.head?_cons] at this
  rw [← isPySpace_iff]; simpa using this

theorem strip_head (s t : List Char) (c : Char) (h : pyStrip s = c :: t) : ¬ Blank c := by
  have h1 : pyStrip s <+: s.dropWhile isPySpace := by
    unfold pyStrip
    refine List.reverse_suffix.1 ?_
    rw [List.reverse_reverse]
    exact List.dropWhile_suffix _
  obtain ⟨u, hu⟩ := h1
  rw [h] at hu
  have := List.head?_dropWhile_not isPySpace s
  rw [← hu] at this
  simp only [List.cons_append, List.head?_cons] at this
  rw [← isPySpace_iff]; simpa using this

theorem lineOf_split (line : List Char) (h : pyStrip line ≠ []) :
    LineOf (pySplit (pyStrip line)) line := by
  obtain ⟨lead, trail, hl, ht, e⟩ := strip_decomp line
  obtain ⟨w, core, _, hw, hwr, e2⟩ := written_of_split (pyStrip line) false [] (by simp)
    (fun t c e => strip_last line t c e) (fun e => absurd e h) (by simp)
    (fun _ ⟨c, t, e, hb⟩ => absurd hb (strip_head line t c e))
  rw [hw rfl, List.nil_append, List.nil_append] at e2
  rw [← e2] at hwr
  exact ⟨lead, _, trail, hl, ht, hwr, e⟩

/-! ### integers -/

theorem ofDigitChars_foldl (s : List Char) (n : ℕ) :
    Nat.ofDigitChars 10 s n = s.foldl (fun m c => 10 * m + (c.toNat - 48)) n := by
  unfold Nat.ofDigitChars
  rfl

theorem isDigit_ne {c : Char} (h : c.isDigit = true) : c ≠ '_' ∧ c ≠ '-' ∧ c ≠ '+' := by
  refine ⟨?_, ?_, ?_⟩ <;> (rintro rfl; revert h; decide)

theorem digitsOk_iff (s : List Char) :
    (digitsOk false s = true ↔ Digits s) ∧
      (digitsOk true s = true ↔ s = [] ∨ Digits s ∨ ∃ t, s = '_' :: t ∧ Digits t) := by
  induction s with
  | nil =>
    refine ⟨⟨fun h => by simp [digitsOk] at h, fun h => by cases h⟩, fun _ => Or.inl rfl, fun _ => rfl⟩
  | cons c s ih =>
    obtain ⟨i1, i2⟩ := ih
    have hd : (c.isDigit = true ∧ digitsOk true s = true) ↔ Digits (c :: s) := by
      rw [i2]
      constructor
      · rintro ⟨hc, rfl | h | ⟨t, rfl, h⟩⟩
        exacts [.one c hc, .more c _ hc h, .sep c t hc h]
      · intro h
        cases h with
        | one _ hc => exact ⟨hc, Or.inl rfl⟩
        | more _ _ hc h => exact ⟨hc, Or.inr (Or.inl h)⟩
        | sep _ t hc h => exact ⟨hc, Or.inr (Or.inr ⟨t, rfl, h⟩)⟩
    by_cases hc : c = '_'
    · subst hc
      have hu : ¬ Digits ('_' :: s) := fun h => by
        have := (hd.2 h).1
        revert this; decide
      simp only [digitsOk, if_true, Bool.false_and, Bool.true_and, i1]
      refine ⟨⟨fun h => by simp at h, fun h => absurd h hu⟩, fun h => Or.inr (Or.inr ⟨s, rfl, h⟩), ?_⟩
      rintro (h | h | ⟨t, h, h2⟩)
      · simp at h
      · exact absurd h hu
      · simp only [List.cons.injEq, true_and] at h
        rw [h]; exact h2
    · simp only [digitsOk, if_neg hc, Bool.and_eq_true, hd]
      refine ⟨trivial, fun h => Or.inr (Or.inl h), ?_⟩
      rintro (h | h | ⟨t, h, -⟩)
      · simp at h
      · exact h
      · simp only [List.cons.injEq] at h
        exact absurd h.1 hc

theorem py_bind_inv {α β : Type} {x : Py α} {f : α → Py β} {y : β} (h : x >>= f = .ok y) :
    ∃ a, x = .ok a ∧ f a = .ok y := by
  cases x with
  | error e => simp at h
  | ok a => exact ⟨a, rfl, h⟩

theorem pyDigits_iff (s : List Char) (n : Int) :
    pyDigits s = .ok n ↔ ∃ m, NatText s m ∧ n = m := by
  unfold pyDigits NatText
  by_cases h : digitsOk false s = true
  · rw [if_pos h, ofDigitChars_foldl]
    rw [(digitsOk_iff s).1] at h
    constructor
    · intro e
      simp only [py_pure, Except.ok.injEq] at e
      exact ⟨_, ⟨h, rfl⟩, e.symm⟩
    · rintro ⟨m, ⟨-, rfl⟩, rfl⟩
      rfl
  · rw [if_neg h]
    rw [(digitsOk_iff s).1] at h
    constructor
    · intro e; cases e
    · rintro ⟨m, ⟨h', -⟩, -⟩; exact absurd h' h

theorem pyDigits_error (s : List Char) : (∃ n, pyDigits s = .ok n) ∨ pyDigits s = .error .valueError := by
  unfold pyDigits
  split_ifs
  · exact Or.inl ⟨_, rfl⟩
  · exact Or.inr rfl

theorem digits_head {c : Char} {t : List Char} (h : Digits (c :: t)) : c.isDigit = true := by
  cases h <;> assumption

theorem pyInt_iff (s : List Char) (n : Int) : pyInt s = .ok n ↔ IntText s n := by
  unfold IntText
  have h1 : ∀ (c : Char) (t : List Char) m, c.isDigit = false → ¬ NatText (c :: t) m := by
    intro c t m hc h
    rw [digits_head h.1] at hc
    cases hc
  unfold pyInt
  split
  · rename_i t
    have hm : ∀ m, ¬ NatText ('-' :: t) m := fun m => h1 '-' t m (by decide)
    constructor
    · intro e
      obtain ⟨k, hk, e⟩ := py_bind_inv e
      obtain ⟨m, hm, rfl⟩ := (pyDigits_iff _ _).1 hk
      simp only [py_pure, Except.ok.injEq] at e
      exact Or.inr (Or.inr ⟨t, m, rfl, hm, e.symm⟩)
    · rintro (⟨m, h, -⟩ | ⟨u, m, h, -⟩ | ⟨u, m, h, h2, rfl⟩)
      · exact absurd h (hm m)
      · simp at h
      · simp only [List.cons.injEq, true_and] at h
        subst h
        rw [(pyDigits_iff _ _).2 ⟨m, h2, rfl⟩]
        rfl
  · rename_i t
    have hm : ∀ m, ¬ NatText ('+' :: t) m := fun m => h1 '+' t m (by decide)
    rw [pyDigits_iff]
    constructor
    · rintro ⟨m, h, rfl⟩
      exact Or.inr (Or.inl ⟨t, m, rfl, h, rfl⟩)
    · rintro (⟨m, h, -⟩ | ⟨u, m, h, h2, rfl⟩ | ⟨u, m, h, h2, rfl⟩)
      · exact absurd h (hm m)
      · simp only [List.cons.injEq, true_and] at h
        subst h
        exact ⟨m, h2, rfl⟩
      · simp at h
  · rename_i h2 h3
    rw [pyDigits_iff]
    constructor
    · exact fun h => Or.inl h
    · rintro (h | ⟨u, m, h, -⟩ | ⟨u, m, h, -⟩)
      · exact h
      · exact absurd h (h3 u)
      · exact absurd h (h2 u)

theorem pyInt_error (s : List Char) : (∃ n, pyInt s = .ok n) ∨ pyInt s = .error .valueError := by
  unfold pyInt
  split
  · rename_i t
    rcases pyDigits_error t with ⟨n, h⟩ | h <;> rw [h]
    · exact Or.inl ⟨_, rfl⟩
    · exact Or.inr rfl
  · exact pyDigits_error _
  · exact pyDigits_error _

theorem digits_of_all {s : List Char} (h0 : s ≠ []) (h : ∀ c ∈ s, c.isDigit = true) : Digits s := by
  induction s with
  | nil => exact absurd rfl h0
  | cons c s ih =>
    by_cases hs : s = []
    · subst hs; exact .one c (h c (by simp))
    · exact .more c s (h c (by simp)) (ih hs fun d hd => h d (by simp [hd]))

theorem natText_toDigits (n : ℕ) : NatText (Nat.toDigits 10 n) n := by
  refine ⟨digits_of_all Nat.toDigits_ne_nil fun c hc => toDigits_isDigit hc, ?_⟩
  rw [List.filter_eq_self.2 fun c hc => by simpa using (isDigit_ne (toDigits_isDigit hc)).1,
    ← ofDigitChars_foldl, Nat.ofDigitChars_ten_toDigits]

/-- The text Python prints for an integer is read back. -/
theorem intText_pyStr (n : Int) : IntText (pyStr n) n := by
  unfold pyStr
  split_ifs with h
  · refine Or.inr (Or.inr ⟨_, (-n).toNat, rfl, natText_toDigits _, by omega⟩)
  · exact Or.inl ⟨n.toNat, natText_toDigits _, by omega⟩

/-! ### lines -/

/-- The nine integers of a label. -/
def labelInts (l : CoeffLabel) : List Int :=
  [l.1.1, l.1.2.1, l.1.2.2, l.2.1.1, l.2.1.2.1, l.2.1.2.2, l.2.2.1, l.2.2.2.1, l.2.2.2.2]

theorem pyFloat_ok {float : FloatSyntax} {s : List Char} {x : ℝ} :
    pyFloat float s = .ok x ↔ float s = some x := by
  unfold pyFloat
  cases float s with
  | none =>
    constructor
    · intro h; cases h
    · intro h; cases h
  | some y =>
    constructor
    · intro h; injection h with h; rw [h]
    · intro h; injection h with h; rw [h]; rfl

theorem mapM_ok_iff {α β : Type} {xs : List α} {f : α → Py β} {ys : List β} :
    xs.mapM f = .ok ys ↔ List.Forall₂ (fun x y => f x = .ok y) xs ys := by
  refine ⟨mapM_eq_ok, fun h => ?_⟩
  induction h with
  | nil => rfl
  | cons h _ ih => rw [List.mapM_cons, h, py_bind_ok, ih, py_bind_ok]; rfl

theorem list_ten {α : Type} {l : List α} (h : l.length = 10) :
    ∃ c ds, l = c :: ds ∧ ds.length = 9 := by
  cases l with
  | nil => simp at h
  | cons c ds => exact ⟨c, ds, rfl, by simpa using h⟩

theorem list_nine {α : Type} {l : List α} (h : l.length = 9) :
    ∃ a b c d e f g i j, l = [a, b, c, d, e, f, g, i, j] := by
  match l, h with
  | [a, b, c, d, e, f, g, i, j], _ => exact ⟨a, b, c, d, e, f, g, i, j, rfl⟩

theorem pyGet_zero {α : Type} (c : α) (ds : List α) : pyGet (c :: ds) 0 = .ok c := rfl

/-- `parse_line` on a line of ten fields. -/
theorem parse_line_ten {float : FloatSyntax} {line : List Char} {c : List Char} {ds : List (List Char)}
    (h : pySplit (pyStrip line) = c :: ds) (hd : ds.length = 9) (x : ℝ) (l : CoeffLabel) :
    parse_line float line = .ok (x, l) ↔
      float c = some x ∧ List.Forall₂ IntText ds (labelInts l) := by
  unfold parse_line
  simp only [h]
  rw [if_neg (by simp [hd]), pyGet_zero]
  simp only [py_bind_ok, List.drop_succ_cons, List.drop_zero]
  constructor
  · intro e
    obtain ⟨y, hy, e⟩ := py_bind_inv e
    obtain ⟨zs, hz, e⟩ := py_bind_inv e
    rw [pyFloat_ok] at hy
    rw [mapM_ok_iff] at hz
    have hl := hz.length_eq
    obtain ⟨a, b, c', d, e', f, g, i, j, rfl⟩ := list_nine (hl.symm.trans hd)
    have hz' : List.Forall₂ IntText ds [a, b, c', d, e', f, g, i, j] :=
      hz.imp fun s n hs => (pyInt_iff s n).1 hs
    have e2 : (y, (a, b, c'), (d, e', f), (g, i, j)) = (x, l) := by
      injection e
    simp only [Prod.mk.injEq] at e2
    obtain ⟨rfl, rfl⟩ := e2
    exact ⟨hy, hz'⟩
  · rintro ⟨hx, hz⟩
    rw [pyFloat_ok.2 hx, py_bind_ok,
      mapM_ok_iff.2 (hz.imp fun s n hs => (pyInt_iff s n).2 hs), py_bind_ok]
    rfl

theorem parse_line_short {float : FloatSyntax} {line : List Char}
    (h : (pySplit (pyStrip line)).length ≠ 10) : parse_line float line = .error .valueError := by
  unfold parse_line
  simp only
  rw [if_pos h]
  rfl

/-- The first field always exists. -/
theorem pySplit_cons (s : List Char) : ∃ c ds, pySplit s = c :: ds := by
  unfold pySplit
  suffices ∀ b cur, ∃ c ds, pySplitAux b cur s = c :: ds from this _ _
  induction s with
  | nil => intro b cur; exact ⟨_, _, rfl⟩
  | cons c s ih =>
    intro b cur
    rw [pySplitAux]
    split_ifs
    exacts [ih _ _, ⟨_, _, rfl⟩, ih _ _]

theorem mapM_val {α β : Type} {f : α → Py β} (l : List α) (h : ∀ x, (∃ y, f x = .ok y) ∨ f x = .error .valueError) :
    (∃ ys, l.mapM f = .ok ys) ∨ l.mapM f = .error .valueError := by
  induction l with
  | nil => exact Or.inl ⟨_, rfl⟩
  | cons a l ih =>
    rw [List.mapM_cons]
    rcases h a with ⟨y, hy⟩ | hy <;> rw [hy]
    · rcases ih with ⟨ys, h⟩ | h <;> rw [h]
      · exact Or.inl ⟨_, rfl⟩
      · exact Or.inr rfl
    · exact Or.inr rfl

theorem pyFloat_val (float : FloatSyntax) (s : List Char) :
    (∃ y, pyFloat float s = .ok y) ∨ pyFloat float s = .error .valueError := by
  unfold pyFloat
  cases float s with
  | none => exact Or.inr rfl
  | some y => exact Or.inl ⟨y, rfl⟩

theorem parse_line_val (float : FloatSyntax) (line : List Char) :
    (∃ y, parse_line float line = .ok y) ∨ parse_line float line = .error .valueError := by
  by_cases h : (pySplit (pyStrip line)).length = 10
  · obtain ⟨c, ds, hs, hd⟩ := list_ten h
    unfold parse_line
    simp only [hs]
    rw [if_neg (by simp [hd]), pyGet_zero]
    simp only [py_bind_ok, List.drop_succ_cons, List.drop_zero]
    rcases pyFloat_val float c with ⟨y, hy⟩ | hy <;> rw [hy]
    · rcases mapM_val ds (f := pyInt) pyInt_error with ⟨ys, h'⟩ | h' <;> rw [h']
      · have hl := (mapM_eq_ok h').length_eq
        obtain ⟨a, b, c', d, e', f, g, i, j, rfl⟩ := list_nine (hl.symm.trans hd)
        exact Or.inl ⟨_, rfl⟩
      · exact Or.inr rfl
    · exact Or.inr rfl
  · exact Or.inr (parse_line_short h)

/-! ### dictionaries -/

theorem dictOf_last {K V : Type} [DecidableEq K] (kvs : List (K × V)) (k : K) (v : V) :
    dictOf kvs k = some v ↔ LastFor kvs k v := by
  induction kvs using List.reverseRecOn with
  | nil =>
    constructor
    · intro h; simp [dictOf] at h
    · rintro ⟨pre, post, h, -⟩; simp at h
  | append_singleton l x ih =>
    have e : dictOf (l ++ [x]) = Function.update (dictOf l) x.1 (some x.2) := by
      unfold dictOf; rw [List.foldl_append]; rfl
    rw [e]
    by_cases hk : k = x.1
    · subst hk
      rw [Function.update_self]
      constructor
      · intro h
        injection h with h
        exact ⟨l, [], by rw [← h], by simp⟩
      · rintro ⟨pre, post, h, hp⟩
        rcases List.eq_nil_or_concat post with rfl | ⟨p, y, rfl⟩
        · have := (List.append_inj' h rfl).2
          simp only [List.cons.injEq, and_true] at this
          rw [this]
        · rw [List.concat_eq_append] at h hp
          have h' : l ++ [x] = (pre ++ (x.1, v) :: p) ++ [y] := by simpa using h
          have := (List.append_inj' h' rfl).2
          simp only [List.cons.injEq, and_true] at this
          exact absurd (by rw [this]) (hp y (by simp))
    · rw [Function.update_of_ne hk, ih]
      constructor
      · rintro ⟨pre, post, rfl, hp⟩
        refine ⟨pre, post ++ [x], by simp, fun y hy => ?_⟩
        rcases List.mem_append.1 hy with hy | hy
        · exact hp y hy
        · rw [List.mem_singleton.1 hy]; exact fun e => hk e.symm
      · rintro ⟨pre, post, h, hp⟩
        rcases List.eq_nil_or_concat post with rfl | ⟨p, y, rfl⟩
        · have := (List.append_inj' h rfl).2
          simp only [List.cons.injEq, and_true] at this
          exact absurd (by rw [this]) hk
        · rw [List.concat_eq_append] at h hp
          have h' : l ++ [x] = (pre ++ (k, v) :: p) ++ [y] := by simpa using h
          obtain ⟨h1, h2⟩ := List.append_inj' h' rfl
          exact ⟨pre, p, h1, fun z hz => hp z (by simp [hz])⟩

theorem lastFor_mem {K V : Type} {l : List (K × V)} {k : K} {v : V} (h : LastFor l k v) : (k, v) ∈ l := by
  obtain ⟨pre, post, rfl, -⟩ := h
  simp

theorem exists_lastFor {K V : Type} [DecidableEq K] {l : List (K × V)} {k : K} {v : V} (h : (k, v) ∈ l) :
    ∃ w, LastFor l k w := by
  cases e : dictOf l k with
  | some w => exact ⟨w, (dictOf_last l k w).1 e⟩
  | none =>
    exfalso
    induction l using List.reverseRecOn with
    | nil => simp at h
    | append_singleton l x ih =>
      have e' : dictOf (l ++ [x]) = Function.update (dictOf l) x.1 (some x.2) := by
        unfold dictOf; rw [List.foldl_append]; rfl
      rw [e'] at e
      by_cases hk : k = x.1
      · rw [hk, Function.update_self] at e; cases e
      · rw [Function.update_of_ne hk] at e
        rcases List.mem_append.1 h with h | h
        · exact ih h e
        · rw [List.mem_singleton] at h
          exact hk (by rw [← h])

/-- A value that all entries of the key share is found. -/
theorem dictOf_found {K V : Type} [DecidableEq K] {l : List (K × V)} {k : K} {v : V} (h : (k, v) ∈ l)
    (hu : ∀ w, (k, w) ∈ l → w = v) : dictOf l k = some v := by
  obtain ⟨w, hw⟩ := exists_lastFor h
  rw [(dictOf_last l k w).2 hw, hu w (lastFor_mem hw)]

/-! ### names -/

theorem parse_dir1_name_ok (v2 : ℕ) : parse_dir1_name (dir1_name v2) = some (v2 : Int) := by
  unfold parse_dir1_name dir1_name
  rw [matchLit_append]
  have := matchNat_pyStr v2 [] head_nil
  rw [List.append_nil] at this
  simp [this, matchEnd]

theorem parse_dir2_name_ok (v1 v2 v3 : ℕ) :
    parse_dir2_name (dir2_name v1 v2 v3) = some ((v1 : Int), (v2 : Int), (v3 : Int)) := by
  have hu : ∀ r : List Char, ∀ d, ('_' :: r).head? = some d → d.isDigit = false :=
    head_nondigit (by decide)
  have hl : ∀ (c : Char) (r : List Char), matchLit [c] (c :: r) = some r := fun c r =>
    matchLit_append [c] r
  unfold parse_dir2_name dir2_name
  have := matchNat_pyStr v3 [] head_nil
  rw [List.append_nil] at this
  simp only [List.append_assoc, matchLit_append, Option.bind_eq_bind, Option.bind_some,
    List.cons_append, List.nil_append, matchNat_pyStr _ _ (hu _), hl, this]
  simp [matchEnd]

theorem parse_datafile_name_ok (v1 v2 a2 L2 v3 : ℕ) :
    parse_datafile_name (datafile_name (v1, v2, a2, L2, v3)) =
      some ((v1 : Int), (v2 : Int), (a2 : Int), (L2 : Int), (v3 : Int)) := by
  have hu : ∀ r : List Char, ∀ d, ('_' :: r).head? = some d → d.isDigit = false :=
    head_nondigit (by decide)
  have hm : ∀ r : List Char, ∀ d, ('-' :: r).head? = some d → d.isDigit = false :=
    head_nondigit (by decide)
  have hl : ∀ (c : Char) (r : List Char), matchLit [c] (c :: r) = some r := fun c r =>
    matchLit_append [c] r
  unfold parse_datafile_name datafile_name
  have := matchNat_pyStr v3 [] head_nil
  rw [List.append_nil] at this
  simp only [List.append_assoc, matchLit_append, Option.bind_eq_bind, Option.bind_some,
    List.cons_append, List.nil_append, matchNat_pyStr _ _ (hu _), matchNat_pyStr _ _ (hm _), hl,
    this]
  simp [matchEnd]

end Acm
