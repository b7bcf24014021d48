import Verif.Model.CGFiles
import Verif.Lemmas.CGSO5

/-!
# Lemmas on names of data files
-/

namespace Acm

theorem pyStr_nat (n : ℕ) : pyStr (n : Int) = Nat.toDigits 10 n := by
  unfold pyStr
  rw [if_neg (by omega), Int.toNat_natCast]

theorem toDigits_isDigit {n : ℕ} {c : Char} (h : c ∈ Nat.toDigits 10 n) : c.isDigit = true :=
  Nat.isDigit_of_mem_toDigits (by decide) (by decide) h

theorem span_digits (ds rest : List Char) (hd : ∀ c ∈ ds, c.isDigit = true)
    (hr : ∀ c, rest.head? = some c → c.isDigit = false) :
    (ds ++ rest).span Char.isDigit = (ds, rest) := by
  rw [List.span_eq_takeWhile_dropWhile]
  have h1 : rest.takeWhile Char.isDigit = [] := by
    cases rest with
    | nil => rfl
    | cons c cs => rw [List.takeWhile_cons, hr c rfl]; rfl
  have h2 : rest.dropWhile Char.isDigit = rest := by
    cases rest with
    | nil => rfl
    | cons c cs => rw [List.dropWhile_cons, hr c rfl]; rfl
  rw [List.takeWhile_append_of_pos hd, List.dropWhile_append_of_pos hd, h1, h2, List.append_nil]

theorem matchNat_digits (ds rest : List Char) (h0 : ds ≠ []) (hd : ∀ c ∈ ds, c.isDigit = true)
    (hr : ∀ c, rest.head? = some c → c.isDigit = false) :
    matchNat (ds ++ rest) = some ((Nat.ofDigitChars 10 ds 0 : Int), rest) := by
  unfold matchNat
  rw [span_digits ds rest hd hr]
  cases ds with
  | nil => exact absurd rfl h0
  | cons c cs => rfl

theorem matchNat_pyStr (n : ℕ) (rest : List Char)
    (hr : ∀ c, rest.head? = some c → c.isDigit = false) :
    matchNat (pyStr n ++ rest) = some ((n : Int), rest) := by
  rw [pyStr_nat, matchNat_digits _ _ Nat.toDigits_ne_nil (fun c => toDigits_isDigit) hr,
    Nat.ofDigitChars_ten_toDigits]

theorem matchLit_append (lit rest : List Char) : matchLit lit (lit ++ rest) = some rest := by
  unfold matchLit
  rw [if_pos (List.isPrefixOf_iff_prefix.2 (List.prefix_append _ _)), List.drop_left]

theorem matchLit_eq_some {lit s rest : List Char} (h : matchLit lit s = some rest) :
    s = lit ++ rest := by
  unfold matchLit at h
  split_ifs at h with hp
  obtain ⟨t, rfl⟩ := List.isPrefixOf_iff_prefix.1 hp
  rw [List.drop_left] at h
  injection h with h
  rw [h]

theorem matchNat_eq_some {s rest : List Char} {n : Int} (h : matchNat s = some (n, rest)) :
    ∃ ds, s = ds ++ rest ∧ ds ≠ [] ∧ (∀ c ∈ ds, c.isDigit = true) ∧
      n = (Nat.ofDigitChars 10 ds 0 : Int) := by
  unfold matchNat at h
  rw [List.span_eq_takeWhile_dropWhile] at h
  have e := List.takeWhile_append_dropWhile (p := Char.isDigit) (l := s)
  have hm : ∀ c ∈ s.takeWhile Char.isDigit, c.isDigit = true := fun c hc => by
    clear h e
    induction s with
    | nil => simp at hc
    | cons x xs ih =>
      rw [List.takeWhile_cons] at hc
      split_ifs at hc with hx
      · rcases List.mem_cons.1 hc with rfl | h2
        · exact hx
        · exact ih h2
      · simp at hc
  revert h
  generalize s.takeWhile Char.isDigit = a at *
  generalize s.dropWhile Char.isDigit = b at *
  intro h
  cases a with
  | nil => simp at h
  | cons c cs =>
    simp only [Option.some.injEq, Prod.mk.injEq] at h
    exact ⟨c :: cs, by rw [← e, h.2], by simp, hm, h.1.symm⟩

theorem matchEnd_eq_some {s : List Char} {u : Unit} (h : matchEnd s = some u) :
    s = [] ∨ s = ['\n'] := by
  unfold matchEnd at h
  split_ifs at h with hp
  exact hp

/-- Two numbers each followed by the same non-digit: the texts can be told apart. -/
theorem pyStr_append_inj {m n : ℕ} {r r' : List Char}
    (hr : ∀ c, r.head? = some c → c.isDigit = false)
    (hr' : ∀ c, r'.head? = some c → c.isDigit = false)
    (h : pyStr m ++ r = pyStr n ++ r') : m = n ∧ r = r' := by
  have h1 := matchNat_pyStr m r hr
  rw [h, matchNat_pyStr n r' hr'] at h1
  simp only [Option.some.injEq, Prod.mk.injEq, Nat.cast_inj] at h1
  exact ⟨h1.1.symm, h1.2.symm⟩

theorem head_nondigit {c : Char} (hc : c.isDigit = false) (r : List Char) :
    ∀ d, (c :: r).head? = some d → d.isDigit = false := by
  intro d hd
  simp only [List.head?_cons, Option.some.injEq] at hd
  rw [← hd, hc]

theorem head_nil : ∀ d, ([] : List Char).head? = some d → d.isDigit = false := by
  intro d hd; simp at hd

theorem relname_inj (v1 v2 a2 L2 v3 v1' v2' a2' L2' v3' : ℕ)
    (h : SO5CG_relname (v1, v2, a2, L2, v3) = SO5CG_relname (v1', v2', a2', L2', v3')) :
    v1 = v1' ∧ v2 = v2' ∧ a2 = a2' ∧ L2 = L2' ∧ v3 = v3' := by
  have hs : ∀ r : List Char, ∀ d, ('/' :: r).head? = some d → d.isDigit = false :=
    head_nondigit (by decide)
  have hu : ∀ r : List Char, ∀ d, ('_' :: r).head? = some d → d.isDigit = false :=
    head_nondigit (by decide)
  have hm : ∀ r : List Char, ∀ d, ('-' :: r).head? = some d → d.isDigit = false :=
    head_nondigit (by decide)
  unfold SO5CG_relname dir1_name dir2_name datafile_name litSO5CG at h
  simp only [List.append_assoc, List.cons_append, List.nil_append, List.cons.injEq, true_and] at h
  obtain ⟨e1, h⟩ := pyStr_append_inj (hs _) (hs _) h
  simp only [List.cons.injEq, true_and] at h
  obtain ⟨e2, h⟩ := pyStr_append_inj (hu _) (hu _) h
  simp only [List.cons.injEq, true_and] at h
  obtain ⟨-, h⟩ := pyStr_append_inj (hu _) (hu _) h
  simp only [List.cons.injEq, true_and] at h
  obtain ⟨e3, h⟩ := pyStr_append_inj (hs _) (hs _) h
  simp only [List.cons.injEq, true_and] at h
  obtain ⟨-, h⟩ := pyStr_append_inj (hu _) (hu _) h
  simp only [List.cons.injEq, true_and] at h
  obtain ⟨-, h⟩ := pyStr_append_inj (hm _) (hm _) h
  simp only [List.cons.injEq, true_and] at h
  obtain ⟨e4, h⟩ := pyStr_append_inj (hm _) (hm _) h
  simp only [List.cons.injEq, true_and] at h
  obtain ⟨e5, h⟩ := pyStr_append_inj (hu _) (hu _) h
  exact ⟨e2, e1, e4, e5, e3⟩

end Acm
