import Verif.Lemmas.Lines

/-!
# Printed designators (C47)
-/

namespace Acm.Props

open Acm.Spec

theorem tranLine_eq (a b c d : List Char) : tranLine a b c d = arrowLine a b c d := by
  simp [tranLine, arrowLine]

/-- C47.  All forms of a designator except that with the four fields `L_i, L_f, j_i, j_f` (and
possibly a fifth field 0) are printed as documented.  Those are printed in the wrong order, see
`C47_order`. -/
theorem C47_lines_partial (ent : List Int)
    (h : ent.length ≠ 4 ∧ (ent.length = 5 → ent[4]? ≠ some 0)) :
    show_lst_line ent = docLine ent := by
  match ent with
  | [] => rfl
  | [a] => simp [show_lst_line, docLine, tranLine_eq, pyStr_eq_dec]
  | [a, b] => simp [show_lst_line, docLine, tranLine_eq, pyStr_eq_dec]
  | [a, b, c] => simp [show_lst_line, docLine, tranLine_eq, pyStr_eq_dec]
  | [a, b, c, d] => simp at h
  | [a, b, c, d, k] =>
    have hk : k ≠ 0 := by simpa using h
    simp [show_lst_line, docLine, tranLine_eq, pyStr_eq_dec, pyStrSigned_eq, hk]
  | a :: b :: c :: d :: e :: f :: l => rfl

/-- A designator that meets the hypotheses. -/
example : ([4, 2, 1, 1, -2] : List Int).length ≠ 4 ∧ show_lst_line [4, 2, 1, 1, -2] =
    some "4-2k(1) -> 2-2k(1)".toList := by decide

/-- C47.  The four-field form is printed as documented iff `L_f = j_i`: the code exchanges these
two fields. -/
theorem C47_order (Li Lf ji jf : Int) :
    show_lst_line [Li, Lf, ji, jf] = docLine [Li, ji, Lf, jf] ∧
    show_lst_line [Li, Lf, ji, jf, 0] = docLine [Li, ji, Lf, jf, 0] ∧
    (show_lst_line [Li, Lf, ji, jf] = docLine [Li, Lf, ji, jf] ↔ Lf = ji) := by
  refine ⟨by simp [show_lst_line, docLine, tranLine_eq, pyStr_eq_dec],
    by simp [show_lst_line, docLine, tranLine_eq, pyStr_eq_dec], ?_⟩
  constructor
  · intro h
    simp only [show_lst_line, docLine, ← tranLine_eq, pyStr_eq_dec, Option.some.injEq] at h
    exact dec_inj (tranLine_inj (okField_dec _) (okField_dec _) (okField_dec _) (okField_dec _)
      (okField_dec _) (okField_dec _) (okField_dec _) (okField_dec _) h).2.1
  · rintro rfl
    simp [show_lst_line, docLine, tranLine_eq, pyStr_eq_dec]

/-- C47 fails: for the transition from the first state with `L = 2` to the first with `L = 0` the
code prints `2(0) -> 1(1)` where `2(1) -> 0(1)` is documented. -/
theorem C47_fails : show_lst_line [2, 0, 1, 1] = some "2(0) -> 1(1)".toList ∧
    docLine [2, 0, 1, 1] = some "2(1) -> 0(1)".toList ∧
    show_lst_line [2, 0, 1, 1] ≠ docLine [2, 0, 1, 1] := by decide

/-- A final field 0 means the same as no fifth field. -/
def normDesignator : List Int → List Int
  | [a, b, c, d, k] => if k = 0 then [a, b, c, d] else [a, b, c, d, k]
  | e => e

/-- C47.  In spite of the exchanged fields a listed designator can be read back from its line. -/
theorem C47_readback (e e' : List Int) (he : IsDesignator e) (he' : IsDesignator e')
    (h : show_lst_line e = show_lst_line e') : normDesignator e = normDesignator e' := by
  have lits : okField ['L', '_', 'i'] ∧ okField ['j', '_', 'i'] ∧ okField ['L', '_', 'f'] ∧
      okField ['j', '_', 'f'] := by unfold okField; decide
  have dL : ∀ n l, dec n ≠ 'L' :: l := fun n l => dec_ne_of_mem (c := 'L') (by simp) (by decide) (by decide)
  have dj : ∀ n l, dec n ≠ 'j' :: l := fun n l => dec_ne_of_mem (c := 'j') (by simp) (by decide) (by decide)
  have dk : ∀ n a k, dec n ≠ kField a k :=
    fun n a k => dec_ne_of_mem (k_mem_kField a k) (by decide) (by decide)
  have kL : ∀ a k, kField a k ≠ ['L', '_', 'i'] ∧ kField a k ≠ ['L', '_', 'f'] := by
    intro a k
    constructor <;> intro hh <;> have := k_mem_kField a k <;> rw [hh] at this <;> revert this <;> decide
  have di : ∀ m n, dec m = dec n ↔ m = n := fun m n => ⟨dec_inj, fun h => h ▸ rfl⟩
  have ki : ∀ a k a' k', kField a k = kField a' k' ↔ a = a' ∧ k = k' :=
    fun a k a' k' => ⟨kField_inj, fun h => by rw [h.1, h.2]⟩
  -- the four fields of a line
  have form : ∀ e : List Int, IsDesignator e → ∃ a b c d, okField a ∧ okField b ∧ okField c ∧
      okField d ∧ show_lst_line e = some (tranLine a b c d) ∧
      ((e = [] ∧ a = ['L', '_', 'i'] ∧ b = ['j', '_', 'i'] ∧ c = ['L', '_', 'f'] ∧ d = ['j', '_', 'f']) ∨
      (∃ x, e = [x] ∧ a = ['L', '_', 'i'] ∧ b = ['j', '_', 'i'] ∧ c = dec x ∧ d = ['j', '_', 'f']) ∨
      (∃ x y, e = [x, y] ∧ a = dec x ∧ b = ['j', '_', 'i'] ∧ c = dec y ∧ d = ['j', '_', 'f']) ∨
      (∃ x y z, e = [x, y, z] ∧ a = dec x ∧ b = ['j', '_', 'i'] ∧ c = dec y ∧ d = dec z) ∨
      (∃ x y z w, normDesignator e = [x, y, z, w] ∧ a = dec x ∧ b = dec y ∧ c = dec z ∧ d = dec w) ∨
      (∃ x y z w k, k ≠ 0 ∧ e = [x, y, z, w, k] ∧ a = kField x k ∧ b = dec z ∧ c = kField y k ∧
        d = dec w)) := by
    intro e he
    match e with
    | [] => exact ⟨_, _, _, _, lits.1, lits.2.1, lits.2.2.1, lits.2.2.2, rfl, by simp⟩
    | [x] =>
      exact ⟨_, _, _, _, lits.1, lits.2.1, okField_dec x, lits.2.2.2,
        by simp [show_lst_line, pyStr_eq_dec], .inr (.inl ⟨x, by simp⟩)⟩
    | [x, y] =>
      exact ⟨_, _, _, _, okField_dec x, lits.2.1, okField_dec y, lits.2.2.2,
        by simp [show_lst_line, pyStr_eq_dec], .inr (.inr (.inl ⟨x, y, by simp⟩))⟩
    | [x, y, z] =>
      exact ⟨_, _, _, _, okField_dec x, lits.2.1, okField_dec y, okField_dec z,
        by simp [show_lst_line, pyStr_eq_dec], .inr (.inr (.inr (.inl ⟨x, y, z, by simp⟩)))⟩
    | [x, y, z, w] =>
      exact ⟨_, _, _, _, okField_dec x, okField_dec y, okField_dec z, okField_dec w,
        by simp [show_lst_line, pyStr_eq_dec],
        .inr (.inr (.inr (.inr (.inl ⟨x, y, z, w, by simp [normDesignator]⟩))))⟩
    | [x, y, z, w, k] =>
      by_cases hk : k = 0
      · exact ⟨_, _, _, _, okField_dec x, okField_dec y, okField_dec z, okField_dec w,
          by simp [show_lst_line, pyStr_eq_dec, hk],
          .inr (.inr (.inr (.inr (.inl ⟨x, y, z, w, by simp [normDesignator, hk]⟩))))⟩
      · exact ⟨_, _, _, _, okField_kField x k, okField_dec z, okField_kField y k, okField_dec w,
          by simp [show_lst_line, pyStr_eq_dec, pyStrSigned_eq, hk, kField],
          .inr (.inr (.inr (.inr (.inr ⟨x, y, z, w, k, hk, by simp⟩))))⟩
    | _ :: _ :: _ :: _ :: _ :: _ :: _ => simp [IsDesignator] at he; omega
  obtain ⟨a, b, c, d, ha, hb, hc, hd, hs, hf⟩ := form e he
  obtain ⟨a', b', c', d', ha', hb', hc', hd', hs', hf'⟩ := form e' he'
  rw [hs, hs', Option.some.injEq] at h
  obtain ⟨e1, e2, e3, e4⟩ := tranLine_inj ha hb hc hd ha' hb' hc' hd' h
  subst e1 e2 e3 e4
  have dL' : ∀ n l, 'L' :: l ≠ dec n := fun n l h => dL n l h.symm
  have dj' : ∀ n l, 'j' :: l ≠ dec n := fun n l h => dj n l h.symm
  have dk' : ∀ n a k, kField a k ≠ dec n := fun n a k h => dk n a k h.symm
  rcases hf with ⟨f, f1, f2, f3, f4⟩ | ⟨x, f, f1, f2, f3, f4⟩ | ⟨x, y, f, f1, f2, f3, f4⟩ |
    ⟨x, y, z, f, f1, f2, f3, f4⟩ | ⟨x, y, z, w, f, f1, f2, f3, f4⟩ |
    ⟨x, y, z, w, k, hk, f, f1, f2, f3, f4⟩ <;>
  rcases hf' with ⟨g, g1, g2, g3, g4⟩ | ⟨x', g, g1, g2, g3, g4⟩ | ⟨x', y', g, g1, g2, g3, g4⟩ |
    ⟨x', y', z', g, g1, g2, g3, g4⟩ | ⟨x', y', z', w', g, g1, g2, g3, g4⟩ |
    ⟨x', y', z', w', k', hk', g, g1, g2, g3, g4⟩ <;>
  rw [f1] at g1 <;> rw [f2] at g2 <;> rw [f3] at g3 <;> rw [f4] at g4 <;>
  first
  | exact absurd g1 (dL _ _)
  | exact absurd g1 (dL' _ _)
  | exact absurd g1 (dk _ _ _)
  | exact absurd g1 (dk' _ _ _)
  | exact absurd g1 (kL _ _).1
  | exact absurd g1.symm (kL _ _).1
  | exact absurd g2 (dj _ _)
  | exact absurd g2 (dj' _ _)
  | exact absurd g3 (dL _ _)
  | exact absurd g3 (dL' _ _)
  | exact absurd g4 (dj _ _)
  | exact absurd g4 (dj' _ _)
  | (simp only [di, ki] at g1 g2 g3 g4; simp only [f, g]; try simp_all)

/-- Two designators whose lines differ in one field. -/
example : IsDesignator [4, 2, 1, 3] ∧ show_lst_line [4, 2, 1, 3] = some "4(2) -> 1(3)".toList ∧
    show_lst_line [4, 2, 3] = some "4(j_i) -> 2(3)".toList := by decide

/-- C47.  All entries of a valid list are printed, one line each, in order, if output is on. -/
theorem C47_all (lst : List (List Int)) (h : ∀ e ∈ lst, IsDesignator e) (s : Int) (hs : 0 < s) :
    (ACM_show_lst lst s).map some = lst.map show_lst_line := by
  unfold ACM_show_lst
  rw [if_pos hs]
  induction lst with
  | nil => rfl
  | cons e lst ih =>
    have he : ∃ l, show_lst_line e = some l := by
      have := h e (by simp)
      match e with
      | [] => exact ⟨_, rfl⟩
      | [a] => exact ⟨_, rfl⟩
      | [a, b] => exact ⟨_, rfl⟩
      | [a, b, c] => exact ⟨_, rfl⟩
      | [a, b, c, d] => exact ⟨_, rfl⟩
      | [a, b, c, d, k] =>
        by_cases hk : k = 0
        · exact ⟨_, by simp only [show_lst_line, hk, ne_eq, not_true_eq_false, if_false]; rfl⟩
        · exact ⟨_, by simp only [show_lst_line, hk, ne_eq, not_false_eq_true, if_true]; rfl⟩
      | _ :: _ :: _ :: _ :: _ :: _ :: _ => simp [IsDesignator] at this; omega
    obtain ⟨l, hl⟩ := he
    rw [List.filterMap_cons_some hl, List.map_cons, List.map_cons, hl,
      ih fun e he => h e (by simp [he])]

end Acm.Props
