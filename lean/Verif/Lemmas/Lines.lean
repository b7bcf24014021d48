import Verif.Model.Globals
import Verif.Spec.Globals
import Verif.Lemmas.CGFiles

/-! Lemmas about printed designators. -/

namespace Acm

open Acm.Spec

theorem pyStr_eq_dec (n : Int) : pyStr n = dec n := by
  unfold pyStr dec
  cases n with
  | ofNat n => rw [if_neg (by simp)]; rfl
  | negSucc n => rw [if_pos (Int.negSucc_lt_zero n)]; rfl

theorem pyStrSigned_eq (n : Int) : pyStrSigned n = decSigned n := by
  unfold pyStrSigned decSigned
  rw [pyStr_eq_dec]
  split_ifs with h1 h2
  · omega
  · rfl
  · rfl
  · omega

theorem toDigits_inj {m n : ℕ} (h : Nat.toDigits 10 m = Nat.toDigits 10 n) : m = n := by
  have h1 := Nat.ofDigitChars_ten_toDigits (n := m)
  rw [h, Nat.ofDigitChars_ten_toDigits] at h1
  exact h1.symm

theorem dec_natAbs (n : Int) :
    dec n = if 0 ≤ n then Nat.toDigits 10 n.natAbs else '-' :: Nat.toDigits 10 n.natAbs := by
  unfold dec
  cases n with
  | ofNat n => rw [if_pos (by simp)]; rfl
  | negSucc n => rw [if_neg (by simp)]; rfl

theorem decSigned_natAbs (n : Int) :
    decSigned n = (if 0 ≤ n then '+' else '-') :: Nat.toDigits 10 n.natAbs := by
  unfold decSigned
  rw [dec_natAbs]
  split_ifs <;> rfl

/-- The characters of a decimal numeral. -/
theorem mem_dec {n : Int} {c : Char} (h : c ∈ dec n) : c = '-' ∨ c.isDigit = true := by
  rw [dec_natAbs] at h
  split_ifs at h
  · exact .inr (toDigits_isDigit h)
  · rcases List.mem_cons.1 h with h | h
    · exact .inl h
    · exact .inr (toDigits_isDigit h)

theorem dec_inj {m n : Int} (h : dec m = dec n) : m = n := by
  have hd : ∀ (a : ℕ) (l : List Char), Nat.toDigits 10 a ≠ '-' :: l := by
    intro a l h
    have : ('-' : Char).isDigit = true := toDigits_isDigit (n := a) (by rw [h]; simp)
    exact absurd this (by decide)
  rw [dec_natAbs, dec_natAbs] at h
  split_ifs at h with h1 h2 h2
  · have := toDigits_inj h; omega
  · exact absurd h (hd _ _)
  · exact absurd h.symm (hd _ _)
  · have := toDigits_inj (List.cons.inj h).2; omega

/-- A text can be split in one way only at the first character failing `p`. -/
theorem split_first {p : Char → Bool} {r r' l l' : List Char} {x y : Char}
    (hr : ∀ c ∈ r, p c = true) (hr' : ∀ c ∈ r', p c = true) (hx : p x = false) (hy : p y = false)
    (h : r ++ x :: l = r' ++ y :: l') : r = r' ∧ x = y ∧ l = l' := by
  induction r generalizing r' with
  | nil =>
    cases r' with
    | nil =>
      simp only [List.nil_append, List.cons.injEq] at h
      exact ⟨rfl, h⟩
    | cons c r' =>
      simp only [List.nil_append, List.cons_append, List.cons.injEq] at h
      have := hr' c (by simp)
      rw [← h.1, hx] at this
      cases this
  | cons c r ih =>
    cases r' with
    | nil =>
      simp only [List.nil_append, List.cons_append, List.cons.injEq] at h
      have := hr c (by simp)
      rw [h.1, hy] at this
      cases this
    | cons c' r' =>
      simp only [List.cons_append, List.cons.injEq] at h
      obtain ⟨h1, h2, h3⟩ := ih (fun d hd => hr d (by simp [hd])) (fun d hd => hr' d (by simp [hd])) h.2
      exact ⟨by rw [h.1, h1], h2, h3⟩

/-- A text can be split in one way only at the last character failing `p`. -/
theorem split_last {p : Char → Bool} {r r' l l' : List Char} {x y : Char}
    (hr : ∀ c ∈ r, p c = true) (hr' : ∀ c ∈ r', p c = true) (hx : p x = false) (hy : p y = false)
    (h : l ++ x :: r = l' ++ y :: r') : r = r' ∧ x = y ∧ l = l' := by
  have h' := congrArg List.reverse h
  simp only [List.reverse_append, List.reverse_cons, List.append_assoc, List.cons_append,
    List.nil_append] at h'
  obtain ⟨h1, h2, h3⟩ := split_first (p := p) (fun c hc => hr c (List.mem_reverse.1 hc))
    (fun c hc => hr' c (List.mem_reverse.1 hc)) hx hy h'
  exact ⟨List.reverse_injective h1, h2, List.reverse_injective h3⟩

/-- A field with the symbol `k`. -/
def kField (a k : Int) : List Char := dec a ++ decSigned k ++ ['k']

theorem kField_inj {a k a' k' : Int} (h : kField a k = kField a' k') : a = a' ∧ k = k' := by
  unfold kField at h
  have h := List.append_cancel_right h
  rw [decSigned_natAbs, decSigned_natAbs] at h
  have hn : ∀ k : Int, Char.isDigit (if 0 ≤ k then '+' else '-') = false := by
    intro k; split_ifs <;> rfl
  obtain ⟨h1, h2, h3⟩ := split_last (p := Char.isDigit) (fun c => toDigits_isDigit)
    (fun c => toDigits_isDigit) (hn k) (hn k') h
  refine ⟨dec_inj h3, ?_⟩
  have := toDigits_inj h1
  split_ifs at h2 <;> first | omega | (exact absurd h2 (by decide))

/-- The characters of a field: none is a parenthesis. -/
def okField (l : List Char) : Prop := '(' ∉ l ∧ ')' ∉ l

theorem okField_dec (n : Int) : okField (dec n) := by
  constructor <;> intro h <;> rcases mem_dec h with h | h <;> revert h <;> decide

theorem okField_kField (a k : Int) : okField (kField a k) := by
  have : ∀ c ∈ kField a k, c = '-' ∨ c = '+' ∨ c = 'k' ∨ c.isDigit = true := by
    intro c hc
    unfold kField at hc
    rw [decSigned_natAbs] at hc
    simp only [List.mem_append, List.mem_cons, List.not_mem_nil, or_false] at hc
    rcases hc with (hc | hc | hc) | hc
    · rcases mem_dec hc with h | h
      · exact .inl h
      · exact .inr (.inr (.inr h))
    · split_ifs at hc
      · exact .inr (.inl hc)
      · exact .inl hc
    · exact .inr (.inr (.inr (toDigits_isDigit hc)))
    · exact .inr (.inr (.inl hc))
  constructor <;> intro h <;> rcases this _ h with h | h | h | h <;> revert h <;> decide

theorem tranLine_inj {a b c d a' b' c' d' : List Char} (ha : okField a) (hb : okField b)
    (hc : okField c) (hd : okField d) (ha' : okField a') (hb' : okField b') (hc' : okField c')
    (hd' : okField d') (h : tranLine a b c d = tranLine a' b' c' d') :
    a = a' ∧ b = b' ∧ c = c' ∧ d = d' := by
  unfold tranLine at h
  simp only [List.append_assoc, List.cons_append, List.nil_append] at h
  have op : ∀ l : List Char, okField l → ∀ c ∈ l, (c != '(') = true := by
    intro l hl c hc
    rw [bne_iff_ne]; rintro rfl; exact hl.1 hc
  have cl : ∀ l : List Char, okField l → ∀ c ∈ l, (c != ')') = true := by
    intro l hl c hc
    rw [bne_iff_ne]; rintro rfl; exact hl.2 hc
  obtain ⟨e1, -, h⟩ := split_first (op a ha) (op a' ha') (by decide) (by decide) h
  obtain ⟨e2, -, h⟩ := split_first (cl b hb) (cl b' hb') (by decide) (by decide) h
  simp only [List.cons.injEq, true_and] at h
  obtain ⟨e3, -, h⟩ := split_first (op c hc) (op c' hc') (by decide) (by decide) h
  obtain ⟨e4, -, h⟩ := split_first (cl d hd) (cl d' hd') (by decide) (by decide) h
  exact ⟨e1, e2, e3, e4⟩

theorem dec_ne_of_mem {n : Int} {l : List Char} {c : Char} (hc : c ∈ l) (h1 : c ≠ '-')
    (h2 : c.isDigit = false) : dec n ≠ l := by
  rintro rfl
  rcases mem_dec hc with h | h
  · exact h1 h
  · rw [h2] at h; cases h

theorem k_mem_kField (a k : Int) : 'k' ∈ kField a k := by
  unfold kField; simp

end Acm
