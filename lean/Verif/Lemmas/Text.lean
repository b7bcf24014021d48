import Verif.Model.Text
import Verif.Spec.Text
import Verif.Lemmas.CGData
import Verif.Lemmas.Lines

/-!
# Lemmas on printed numbers and on `str.format`
-/

namespace Acm
open Spec

/-! ## rounding -/

theorem roundEven_near {x : ℝ} (hx : 0 ≤ x) : |(roundEven x : ℝ) - x| ≤ 1 / 2 ∧
    (|(roundEven x : ℝ) - x| = 1 / 2 → roundEven x % 2 = 0) := by
  have h1 := Nat.floor_le hx
  have h2 := Nat.lt_floor_add_one x
  unfold roundEven
  split_ifs with a b c
  · rw [abs_sub_comm, abs_of_nonneg (by linarith)]
    exact ⟨by linarith, fun e => by linarith⟩
  · push_cast
    rw [abs_of_nonneg (by linarith)]
    exact ⟨by linarith, fun e => by linarith⟩
  · rw [abs_sub_comm, abs_of_nonneg (by linarith)]
    exact ⟨by linarith, fun _ => c⟩
  · push_cast
    rw [abs_of_nonneg (by linarith)]
    exact ⟨by linarith, fun _ => by omega⟩

theorem roundEven_mono {x y : ℝ} (hx : 0 ≤ x) (h : x ≤ y) : roundEven x ≤ roundEven y := by
  by_contra hc
  push Not at hc
  have h1 := abs_le.1 (roundEven_near hx).1
  have h2 := abs_le.1 (roundEven_near (hx.trans h)).1
  have h3 : (roundEven y : ℝ) + 1 ≤ roundEven x := by exact_mod_cast hc
  have : x = y := by linarith [h1.1, h1.2, h2.1, h2.2]
  subst this
  exact lt_irrefl _ hc

theorem digits_pad (k n : ℕ) : (List.replicate k '0' ++ Nat.toDigits 10 n).foldl (fun m c => 10 * m + (c.toNat - 48)) 0 = n := by
  have : ∀ k s, (List.replicate k '0' ++ s).foldl (fun (m : ℕ) c => 10 * m + (c.toNat - 48)) 0
      = s.foldl (fun (m : ℕ) c => 10 * m + (c.toNat - 48)) 0 := by
    intro k s
    induction k with
    | zero => rfl
    | succ k ih => rw [List.replicate_succ, List.cons_append, List.foldl_cons]; exact ih
  rw [this, ← ofDigitChars_foldl, Nat.ofDigitChars_ten_toDigits]

theorem foldl_digits (s : List Char) (a : ℕ) : s.foldl (fun m c => 10 * m + (c.toNat - 48)) a =
    a * 10 ^ s.length + s.foldl (fun m c => 10 * m + (c.toNat - 48)) 0 := by
  induction s generalizing a with
  | nil => simp
  | cons c s ih =>
    rw [List.foldl_cons, List.foldl_cons, ih (10 * a + _), ih (10 * 0 + _), List.length_cons, pow_succ]
    ring

theorem toDigits_length {n p : ℕ} (hp : 0 < p) (h : n < 10 ^ p) : (Nat.toDigits 10 n).length ≤ p := by
  rw [Nat.length_toDigits_le_iff (by norm_num) hp]
  exact h

/-! ## numbers -/

/-- The number that the text of `x` with `p` decimals writes. -/
noncomputable def fixedValue (p : ℕ) (x : ℝ) : ℝ := (if x < 0 then -1 else 1) * (roundEven (|x| * 10 ^ p) : ℝ) / 10 ^ p

theorem zfill_length {p n : ℕ} (hp : 0 < p) (h : n < 10 ^ p) : (zfill p (Nat.toDigits 10 n)).length = p := by
  have := toDigits_length hp h
  unfold zfill
  rw [List.length_append, List.length_replicate]
  omega

theorem zfill_isDigit {p n : ℕ} : ∀ c ∈ zfill p (Nat.toDigits 10 n), c.isDigit = true := by
  intro c hc
  rcases List.mem_append.1 hc with h | h
  · rw [(List.mem_replicate.1 h).2]; rfl
  · exact toDigits_isDigit h

theorem fixed_decText (p k : ℕ) (x : ℝ) :
    DecText (List.replicate k ' ' ++ ((if x < 0 then ['-'] else []) ++ fixedBody p x)) p (fixedValue p x) := by
  set n := roundEven (|x| * 10 ^ p) with hn
  refine ⟨k, decide (x < 0), Nat.toDigits 10 (n / 10 ^ p), if p = 0 then [] else zfill p (Nat.toDigits 10 (n % 10 ^ p)), ?_,
    Nat.toDigits_ne_nil, ?_, ?_, ?_⟩
  · unfold fixedBody
    by_cases hp : p = 0 <;> by_cases hx : x < 0 <;> simp [hp, hx, hn]
  · by_cases hp : p = 0
    · simp [hp]
    · rw [if_neg hp]
      exact zfill_length (by omega) (Nat.mod_lt _ (by positivity))
  · intro c hc
    rcases List.mem_append.1 hc with h | h
    · exact toDigits_isDigit h
    · split_ifs at h
      · cases h
      · exact zfill_isDigit c h
  · have key : (Nat.toDigits 10 (n / 10 ^ p) ++ if p = 0 then [] else zfill p (Nat.toDigits 10 (n % 10 ^ p))).foldl
        (fun m c => 10 * m + (c.toNat - 48)) 0 = n := by
      have e1 : (Nat.toDigits 10 (n / 10 ^ p)).foldl (fun m c => 10 * m + (c.toNat - 48)) 0 = n / 10 ^ p := by
        rw [← ofDigitChars_foldl, Nat.ofDigitChars_ten_toDigits]
      rw [List.foldl_append, e1]
      by_cases hp : p = 0
      · subst hp
        simp
      · rw [if_neg hp, foldl_digits, zfill_length (by omega) (Nat.mod_lt _ (by positivity))]
        unfold zfill
        rw [digits_pad]
        exact Nat.div_add_mod' n (10 ^ p)
    rw [key]
    unfold fixedValue
    by_cases hx : x < 0 <;> simp [hx, hn]

theorem fixedValue_near (p : ℕ) (x : ℝ) : |fixedValue p x - x| ≤ 1 / 2 / 10 ^ p ∧
    (|fixedValue p x - x| = 1 / 2 / 10 ^ p → ∃ m : ℤ, fixedValue p x = 2 * m / 10 ^ p) := by
  have h10 : (0 : ℝ) < 10 ^ p := by positivity
  obtain ⟨h1, h2⟩ := roundEven_near (x := |x| * 10 ^ p) (by positivity)
  have key : |fixedValue p x - x| = |(roundEven (|x| * 10 ^ p) : ℝ) - |x| * 10 ^ p| / 10 ^ p := by
    rw [← abs_of_pos h10, ← abs_div, abs_of_pos h10]
    unfold fixedValue
    split_ifs with hx
    · rw [abs_of_neg hx, ← abs_neg]
      congr 1
      field_simp
      ring
    · rw [abs_of_nonneg (not_lt.1 hx)]
      congr 1
      field_simp
  rw [key, div_le_div_iff_of_pos_right h10]
  refine ⟨h1, fun e => ?_⟩
  rw [div_left_inj' h10.ne'] at e
  obtain ⟨m, hm⟩ := Nat.dvd_of_mod_eq_zero (h2 e)
  refine ⟨(if x < 0 then -1 else 1) * m, ?_⟩
  unfold fixedValue
  rw [hm]
  split_ifs <;> push_cast <;> ring

theorem fixedValue_mono (p : ℕ) {x y : ℝ} (h : x ≤ y) : fixedValue p x ≤ fixedValue p y := by
  have h10 : (0 : ℝ) < 10 ^ p := by positivity
  unfold fixedValue
  rw [div_le_div_iff_of_pos_right h10]
  split_ifs with hx hy hy
  · have : roundEven (|y| * 10 ^ p) ≤ roundEven (|x| * 10 ^ p) := by
      refine roundEven_mono (by positivity) ?_
      rw [abs_of_neg hx, abs_of_neg hy]
      nlinarith
    have : ((roundEven (|y| * 10 ^ p) : ℕ) : ℝ) ≤ roundEven (|x| * 10 ^ p) := by exact_mod_cast this
    linarith
  · have h1 : (0 : ℝ) ≤ roundEven (|x| * 10 ^ p) := Nat.cast_nonneg _
    have h2 : (0 : ℝ) ≤ roundEven (|y| * 10 ^ p) := Nat.cast_nonneg _
    linarith
  · linarith
  · have : roundEven (|x| * 10 ^ p) ≤ roundEven (|y| * 10 ^ p) := by
      refine roundEven_mono (by positivity) ?_
      rw [abs_of_nonneg (not_lt.1 hx), abs_of_nonneg (not_lt.1 hy)]
      nlinarith
    have : ((roundEven (|x| * 10 ^ p) : ℕ) : ℝ) ≤ roundEven (|y| * 10 ^ p) := by exact_mod_cast this
    linarith

/-! ## the format specifications -/

theorem digitsNat_toDigits (n : ℕ) : digitsNat (Nat.toDigits 10 n) = n := by
  have := digits_pad 0 n
  simpa [digitsNat] using this

theorem takeWhile_digits {n : ℕ} {s : List Char} (hs : ∀ c ∈ s.head?, c.isDigit = false) :
    (Nat.toDigits 10 n ++ s).takeWhile Char.isDigit = Nat.toDigits 10 n ∧
    (Nat.toDigits 10 n ++ s).dropWhile Char.isDigit = s := by
  have h : ∀ c ∈ Nat.toDigits 10 n, c.isDigit = true := fun c hc => toDigits_isDigit hc
  constructor
  · rw [List.takeWhile_append_of_pos h]
    cases s with
    | nil => simp
    | cons c t => simp [hs c (by simp)]
  · rw [List.dropWhile_append_of_pos h]
    cases s with
    | nil => simp
    | cons c t => simp [hs c (by simp)]

theorem digitsNat_lt {s : List Char} (h : ∀ c ∈ s, c.isDigit = true) : digitsNat s < 10 ^ s.length := by
  unfold digitsNat
  induction s with
  | nil => simp
  | cons c s ih =>
    rw [List.foldl_cons, foldl_digits, List.length_cons, pow_succ]
    have h1 := ih fun d hd => h d (List.mem_cons_of_mem _ hd)
    have h2 : c.toNat - 48 ≤ 9 := by
      have := h c (List.mem_cons_self ..)
      have := Char.isDigit_iff_toNat.1 this
      simp at this
      omega
    nlinarith

theorem toDigits_head (n : ℕ) : (∃ t, Nat.toDigits 10 n = '0' :: t) ↔ n = 0 := by
  constructor
  · rintro ⟨t, h⟩
    by_contra hn
    have hd : ∀ c ∈ t, c.isDigit = true := fun c hc => toDigits_isDigit (by rw [h]; exact List.mem_cons_of_mem _ hc)
    have e : n = digitsNat t := by
      rw [← digitsNat_toDigits n, h]
      rfl
    have h1 := digitsNat_lt hd
    rw [← e] at h1
    rcases Nat.eq_zero_or_pos t.length with h0 | h0
    · rw [h0] at h1
      omega
    · have := toDigits_length h0 h1
      rw [h, List.length_cons] at this
      omega
  · rintro rfl
    exact ⟨[], rfl⟩

theorem dropFlag_digits {c : Char} (hc : c.isDigit = false) (n : ℕ) (s : List Char) :
    dropFlag c (Nat.toDigits 10 n ++ s) = (false, Nat.toDigits 10 n ++ s) := by
  cases h : Nat.toDigits 10 n with
  | nil => exact absurd h Nat.toDigits_ne_nil
  | cons d t =>
    have hd : d.isDigit = true := toDigits_isDigit (n := n) (by rw [h]; exact List.mem_cons_self ..)
    have : d ≠ c := by rintro rfl; rw [hc] at hd; cases hd
    simp [dropFlag, this]

/-- `w.pf` is a width, a precision and the type `f`. -/
theorem parseSpec_item (w p : ℕ) : parseSpec (pyStr w ++ '.' :: (pyStr p ++ ['f'])) = .ok ⟨false, decide (w = 0), w, some p, some 'f'⟩ := by
  rw [pyStr_nat, pyStr_nat]
  have hp := takeWhile_digits (n := p) (s := ['f']) (by simp)
  have key : ∀ b : Bool × List Char, (b.2.takeWhile Char.isDigit = (if w = 0 then [] else Nat.toDigits 10 w)) →
      b.2.dropWhile Char.isDigit = '.' :: (Nat.toDigits 10 p ++ ['f']) → b.1 = decide (w = 0) →
      dropFlag '0' (Nat.toDigits 10 w ++ '.' :: (Nat.toDigits 10 p ++ ['f'])) = b →
      parseSpec (Nat.toDigits 10 w ++ '.' :: (Nat.toDigits 10 p ++ ['f'])) = .ok ⟨false, decide (w = 0), w, some p, some 'f'⟩ := by
    intro b h1 h2 h3 h4
    unfold parseSpec
    rw [dropFlag_digits (by rfl)]
    simp only
    rw [h4, h1, h2, h3]
    have : dropFlag '.' ('.' :: (Nat.toDigits 10 p ++ ['f'])) = (true, Nat.toDigits 10 p ++ ['f']) := by simp [dropFlag]
    rw [this]
    simp only [if_true]
    rw [hp.1, hp.2, if_neg Nat.toDigits_ne_nil, digitsNat_toDigits]
    have e : digitsNat (if w = 0 then [] else Nat.toDigits 10 w) = w := by
      split_ifs with h
      · rw [h]; rfl
      · exact digitsNat_toDigits w
    rw [e]
    rfl
  by_cases hw : w = 0
  · subst hw
    exact key (true, '.' :: (Nat.toDigits 10 p ++ ['f'])) (by simp) (by simp) rfl rfl
  · refine key (false, Nat.toDigits 10 w ++ '.' :: (Nat.toDigits 10 p ++ ['f'])) ?_ ?_ (by simp [hw]) ?_
    · rw [if_neg hw]
      exact (takeWhile_digits (by simp)).1
    · exact (takeWhile_digits (by simp)).2
    · cases h : Nat.toDigits 10 w with
      | nil => exact absurd h Nat.toDigits_ne_nil
      | cons d t =>
        have : d ≠ '0' := by
          rintro rfl
          exact hw ((toDigits_head w).1 ⟨t, h⟩)
        simp [dropFlag, this]

theorem parseSpec_low (p : ℕ) : parseSpec ('.' :: (pyStr p ++ ['f'])) = .ok ⟨false, false, 0, some p, some 'f'⟩ := by
  rw [pyStr_nat]
  have hp := takeWhile_digits (n := p) (s := ['f']) (by simp)
  unfold parseSpec
  simp only [dropFlag, show ('.' : Char) ≠ '+' by decide, show ('.' : Char) ≠ '0' by decide, if_false]
  simp only [List.takeWhile_cons, List.dropWhile_cons, show Char.isDigit '.' = false from rfl, if_false, Bool.false_eq_true,
    if_true]
  rw [hp.1, hp.2, if_neg Nat.toDigits_ne_nil, digitsNat_toDigits]
  rfl

theorem fltText_item (w p : ℕ) (x : ℝ) : fltText ⟨false, decide (w = 0), w, some p, some 'f'⟩ x =
    List.replicate (w - ((if x < 0 then ['-'] else []) ++ fixedBody p x).length) ' ' ++
      ((if x < 0 then ['-'] else []) ++ fixedBody p x) := by
  unfold fltText numText
  by_cases hw : w = 0
  · subst hw
    by_cases hx : x < 0 <;> simp [hx, zfill]
  · by_cases hx : x < 0 <;> simp [hx, hw]

/-- A displayed value. -/
theorem format_item {g : Glb} {w p : ℕ} (hw : g.rel_wid = w) (hp : g.rel_pre = p) (x : ℝ) :
    pyFormatFlt (itemSpec g) x = .ok (List.replicate (w - ((if x < 0 then ['-'] else []) ++ fixedBody p x).length) ' ' ++
      ((if x < 0 then ['-'] else []) ++ fixedBody p x)) := by
  unfold pyFormatFlt itemSpec
  rw [hw, hp, parseSpec_item, py_bind_ok]
  exact congrArg Except.ok (fltText_item w p x)

theorem format_low {g : Glb} {p : ℕ} (hp : g.low_pre = p) (x : ℝ) :
    pyFormatFlt (lowSpec g) x = .ok ((if x < 0 then ['-'] else []) ++ fixedBody p x) := by
  unfold pyFormatFlt lowSpec
  rw [hp, parseSpec_low, py_bind_ok]
  refine congrArg Except.ok (show fltText _ _ = _ from ?_)
  unfold fltText numText
  by_cases hx : x < 0 <;> simp [hx]

/-! ## templates -/

/-- A piece of a template: plain text, or a field. -/
inductive TSeg where
  | lit (s : List Char)
  | fld (f : List Char)

/-- The text of a template. -/
def TSeg.render : List TSeg → List Char
  | [] => []
  | .lit s :: r => s ++ TSeg.render r
  | .fld f :: r => '{' :: (f ++ '}' :: TSeg.render r)

/-- Plain text without braces; fields without name. -/
def TSeg.Ok : TSeg → Prop
  | .lit s => Plain s
  | .fld f => Plain f ∧ (f = [] ∨ ∃ t, f = ':' :: t)

/-- What a template gives, with automatic numbering from `k`. -/
noncomputable def TSeg.eval (args : List FArg) : List TSeg → ℕ → Py (List Char)
  | [], _ => pure []
  | .lit s :: r, k => do
    let t ← TSeg.eval args r k
    pure (s ++ t)
  | .fld f :: r, k =>
    match args[k]? with
    | none => throw .indexError
    | some arg => do
      let spec ← parseSpec (f.drop 1)
      let s ← formatArg spec arg
      let t ← TSeg.eval args r (k + 1)
      pure (s ++ t)

theorem fmtGo_lit {args : List FArg} {s t : List Char} (hs : Plain s) (st : FNum) :
    fmtGo args (s ++ t) .lit st = (do let r ← fmtGo args t .lit st; pure (s ++ r)) := by
  induction s with
  | nil => rw [List.nil_append]; cases fmtGo args t .lit st <;> rfl
  | cons c s ih =>
    obtain ⟨h1, h2⟩ := hs
    have hc : c ≠ '{' ∧ c ≠ '}' := ⟨fun h => h1 (h ▸ List.mem_cons_self ..), fun h => h2 (h ▸ List.mem_cons_self ..)⟩
    rw [List.cons_append, fmtGo, if_neg hc.1, if_neg hc.2, ih ⟨fun h => h1 (List.mem_cons_of_mem _ h), fun h => h2 (List.mem_cons_of_mem _ h)⟩]
    cases fmtGo args t .lit st <;> rfl

theorem fmtGo_field {args : List FArg} {f t : List Char} (hf : Plain f) (st : FNum) : ∀ g : List Char,
    fmtGo args (f ++ '}' :: t) (.field g) st = (do
      let s ← fmtField args (g ++ f) st
      let r ← fmtGo args t .lit s.2
      pure (s.1 ++ r)) := by
  induction f with
  | nil =>
    intro g
    rw [List.nil_append, fmtGo, if_neg (by decide), if_pos rfl, List.append_nil]
  | cons c f ih =>
    intro g
    obtain ⟨h1, h2⟩ := hf
    have hc : c ≠ '{' ∧ c ≠ '}' := ⟨fun h => h1 (h ▸ List.mem_cons_self ..), fun h => h2 (h ▸ List.mem_cons_self ..)⟩
    rw [List.cons_append, fmtGo, if_neg hc.1, if_neg hc.2, ih ⟨fun h => h1 (List.mem_cons_of_mem _ h), fun h => h2 (List.mem_cons_of_mem _ h)⟩]
    simp

theorem fmtGo_open {args : List FArg} {f t : List Char} (hf : Plain f) (st : FNum) :
    fmtGo args ('{' :: (f ++ '}' :: t)) .lit st = (do
      let s ← fmtField args f st
      let r ← fmtGo args t .lit s.2
      pure (s.1 ++ r)) := by
  rw [fmtGo, if_pos rfl]
  cases f with
  | nil => rw [List.nil_append, fmtGo, if_neg (by decide), if_pos rfl]
  | cons c f =>
    obtain ⟨h1, h2⟩ := hf
    have hc : c ≠ '{' ∧ c ≠ '}' := ⟨fun h => h1 (h ▸ List.mem_cons_self ..), fun h => h2 (h ▸ List.mem_cons_self ..)⟩
    rw [List.cons_append, fmtGo, if_neg hc.1, if_neg hc.2,
      fmtGo_field ⟨fun h => h1 (List.mem_cons_of_mem _ h), fun h => h2 (List.mem_cons_of_mem _ h)⟩]
    rfl

/-- The numbering is automatic, with the next number `k`. -/
def FNum.IsAuto (st : FNum) (k : ℕ) : Prop := st = .auto k ∨ (st = .start ∧ k = 0)

theorem fmtField_auto {args : List FArg} {f : List Char} (hf : f = [] ∨ ∃ t, f = ':' :: t) {st : FNum} {k : ℕ} (hst : st.IsAuto k) :
    fmtField args f st = (match args[k]? with
      | none => throw .indexError
      | some arg => do
        let spec ← parseSpec (f.drop 1)
        let s ← formatArg spec arg
        pure (s, .auto (k + 1))) := by
  have e1 : f.takeWhile (· ≠ ':') = [] := by rcases hf with rfl | ⟨t, rfl⟩ <;> simp
  have e2 : f.dropWhile (· ≠ ':') = f := by rcases hf with rfl | ⟨t, rfl⟩ <;> simp
  have e3 : fieldIndex [] st = .ok (k, .auto (k + 1)) := by
    rcases hst with rfl | ⟨rfl, rfl⟩ <;> rfl
  unfold fmtField
  simp only [e1, e2, List.takeWhile_nil, List.dropWhile_nil, e3, py_bind_ok, if_true]
  cases args[k]? <;> rfl

theorem fmtGo_segs {args : List FArg} : ∀ {segs : List TSeg} {st : FNum} {k : ℕ}, (∀ s ∈ segs, s.Ok) → st.IsAuto k →
    fmtGo args (TSeg.render segs) .lit st = TSeg.eval args segs k
  | [], st, k, _, _ => rfl
  | .lit s :: r, st, k, h, hst => by
    rw [TSeg.render, fmtGo_lit (h (.lit s) (List.mem_cons_self ..)), fmtGo_segs (fun t ht => h t (List.mem_cons_of_mem _ ht)) hst,
      TSeg.eval]
  | .fld f :: r, st, k, h, hst => by
    obtain ⟨h1, h2⟩ := h (.fld f) (List.mem_cons_self ..)
    rw [TSeg.render, fmtGo_open h1, fmtField_auto h2 hst, TSeg.eval]
    cases args[k]? with
    | none => rfl
    | some arg =>
      simp only
      cases parseSpec (f.drop 1) with
      | error e => rfl
      | ok spec =>
        simp only [py_bind_ok]
        cases formatArg spec arg with
        | error e => rfl
        | ok s =>
          simp only [py_bind_ok]
          show (do let r ← fmtGo args (TSeg.render r) .lit (.auto (k + 1)); pure (s ++ r)) = _
          rw [fmtGo_segs (fun t ht => h t (List.mem_cons_of_mem _ ht)) (.inl rfl)]

/-- Formatting a template that consists of plain text and numbered fields. -/
theorem format_segs {args : List FArg} {segs : List TSeg} (h : ∀ s ∈ segs, s.Ok) :
    pyFormat (TSeg.render segs) args = TSeg.eval args segs 0 := fmtGo_segs h (.inr ⟨rfl, rfl⟩)

theorem numText_dec (n : Int) : (if decide (n < 0) = true then ['-'] else []) ++ Nat.toDigits 10 n.natAbs = dec n := by
  cases n with
  | ofNat n => rw [if_neg (by simp)]; rfl
  | negSucc n => rw [if_pos (by simp [Int.negSucc_lt_zero])]; rfl

theorem format_d (n : Int) : (do let f ← parseSpec [':', 'd'].tail; formatArg f (.int n)) = .ok (dec n) := by
  refine congrArg Except.ok (show numText ⟨false, false, 0, none, some 'd'⟩ (decide (n < 0)) (Nat.toDigits 10 n.natAbs) = _ from ?_)
  unfold numText
  simp only [Bool.false_eq_true, if_false]
  rw [numText_dec, Nat.zero_sub]
  rfl

theorem format_2d (n : Int) : (do let f ← parseSpec "2d".toList; formatArg f (.int n)) =
    .ok (List.replicate (2 - (dec n).length) ' ' ++ dec n) := by
  refine congrArg Except.ok (show numText ⟨false, false, 2, none, some 'd'⟩ (decide (n < 0)) (Nat.toDigits 10 n.natAbs) = _ from ?_)
  unfold numText
  simp only [Bool.false_eq_true, if_false]
  rw [numText_dec]

theorem format_plus (n : Int) : (do let f ← parseSpec [':', '+', 'd'].tail; formatArg f (.int n)) = .ok (decSigned n) := by
  refine congrArg Except.ok (show numText ⟨true, false, 0, none, some 'd'⟩ (decide (n < 0)) (Nat.toDigits 10 n.natAbs) = _ from ?_)
  unfold numText decSigned
  have := numText_dec n
  by_cases h : n < 0
  · rw [if_neg (show ¬ (0 ≤ n) by omega), ← this]
    simp [h]
  · rw [if_pos (show 0 ≤ n by omega), ← this]
    simp [h]

theorem eval_lit (args : List FArg) (s : List Char) (r : List TSeg) (k : ℕ) {t : List Char} (h : TSeg.eval args r k = .ok t) :
    TSeg.eval args (.lit s :: r) k = .ok (s ++ t) := by
  rw [TSeg.eval, h]; rfl

theorem eval_fld (args : List FArg) (f : List Char) (r : List TSeg) (k : ℕ) {a : FArg} {s t : List Char} (ha : args[k]? = some a)
    (hs : (do let g ← parseSpec f.tail; formatArg g a) = .ok s) (h : TSeg.eval args r (k + 1) = .ok t) :
    TSeg.eval args (.fld f :: r) k = .ok (s ++ t) := by
  rw [TSeg.eval, ha]
  rw [← List.drop_one] at hs
  cases hp : parseSpec (f.drop 1) with
  | error e => rw [hp] at hs; cases hs
  | ok g =>
    rw [hp, py_bind_ok] at hs
    simp only [py_bind_ok, hs, h]
    rfl

theorem format_str (s : List Char) : (do let f ← parseSpec ([] : List Char).tail; formatArg f (.str s)) = .ok s := by
  refine congrArg Except.ok (show s ++ List.replicate (0 - s.length) ' ' = _ from ?_)
  simp

theorem plain_nil : Plain [] := ⟨by simp, by simp⟩

theorem format2 {m0 m1 m2 : List Char} (h0 : Plain m0) (h1 : Plain m1) (h2 : Plain m2) (a b : List Char) :
    pyFormat (template2 m0 m1 m2) [.str a, .str b] = .ok (m0 ++ (a ++ (m1 ++ (b ++ m2)))) := by
  have e : template2 m0 m1 m2 = TSeg.render [.lit m0, .fld [], .lit m1, .fld [], .lit m2] := by
    simp [template2, TSeg.render]
  rw [e, format_segs]
  · have := eval_lit [.str a, .str b] m0 _ 0 (eval_fld _ [] _ 0 rfl (format_str a) (eval_lit _ m1 _ 1
      (eval_fld _ [] _ 1 rfl (format_str b) (eval_lit _ m2 [] 2 rfl))))
    simpa using this
  · simp [TSeg.Ok, h0, h1, h2, plain_nil]

theorem format4 {l0 l1 l2 l3 l4 : List Char} (h0 : Plain l0) (h1 : Plain l1) (h2 : Plain l2) (h3 : Plain l3) (h4 : Plain l4)
    (a b c d : List Char) : pyFormat (template4 l0 l1 l2 l3 l4) [.str a, .str b, .str c, .str d] =
      .ok (l0 ++ (a ++ (l1 ++ (b ++ (l2 ++ (c ++ (l3 ++ (d ++ l4)))))))) := by
  have e : template4 l0 l1 l2 l3 l4 =
      TSeg.render [.lit l0, .fld [], .lit l1, .fld [], .lit l2, .fld [], .lit l3, .fld [], .lit l4] := by
    simp [template4, TSeg.render]
  rw [e, format_segs]
  · have := eval_lit [.str a, .str b, .str c, .str d] l0 _ 0 (eval_fld _ [] _ 0 rfl (format_str a) (eval_lit _ l1 _ 1
      (eval_fld _ [] _ 1 rfl (format_str b) (eval_lit _ l2 _ 2 (eval_fld _ [] _ 2 rfl (format_str c)
      (eval_lit _ l3 _ 3 (eval_fld _ [] _ 3 rfl (format_str d) (eval_lit _ l4 [] 4 rfl))))))))
    simpa using this
  · simp [TSeg.Ok, h0, h1, h2, h3, h4, plain_nil]

theorem pyStr_plain (n : ℕ) : Plain (pyStr n) := by
  rw [pyStr_nat]
  constructor <;> intro h <;> have := toDigits_isDigit h <;> revert this <;> decide

theorem itemSpec_plain {g : Glb} {w p : ℕ} (hw : g.rel_wid = w) (hp : g.rel_pre = p) : Plain (itemSpec g) := by
  obtain ⟨a1, a2⟩ := pyStr_plain w
  obtain ⟨b1, b2⟩ := pyStr_plain p
  unfold itemSpec
  rw [hw, hp]
  constructor <;> simp [a1, a2, b1, b2]

/-- The text of a displayed value. -/
noncomputable def itemText (w p : ℕ) (x : ℝ) : List Char :=
  List.replicate (w - ((if x < 0 then ['-'] else []) ++ fixedBody p x).length) ' ' ++
    ((if x < 0 then ['-'] else []) ++ fixedBody p x)

theorem itemText_rounded (w p : ℕ) (x : ℝ) : Rounded (itemText w p x) p x :=
  ⟨_, fixed_decText p _ x, fixedValue_near p x⟩

theorem itemText_filled (w p : ℕ) (x : ℝ) : Filled (itemText w p x) w := by
  set b := (if x < 0 then ['-'] else []) ++ fixedBody p x with hb
  have e : itemText w p x = List.replicate (w - b.length) ' ' ++ b := rfl
  have hh : b.head? ≠ some ' ' := by
    rw [hb]
    split_ifs
    · simp
    · unfold fixedBody
      rw [List.nil_append]
      intro h
      cases ht : Nat.toDigits 10 (roundEven (|x| * 10 ^ p) / 10 ^ p) with
      | nil => exact absurd ht Nat.toDigits_ne_nil
      | cons d t =>
        have hd : d.isDigit = true := toDigits_isDigit (n := roundEven (|x| * 10 ^ p) / 10 ^ p) (by rw [ht]; simp)
        rw [ht] at h
        simp at h
        rw [h] at hd
        revert hd
        decide
  rw [e]
  refine ⟨by simp; omega, fun h => ?_⟩
  rcases Nat.eq_zero_or_pos (w - b.length) with h0 | h0
  · rw [h0] at h
    exact absurd h hh
  · simp; omega

theorem items_ok (w p : ℕ) (xs : List ℝ) : Items w p (xs.map (itemText w p)) xs := by
  unfold Items
  induction xs with
  | nil => exact .nil
  | cons x xs ih => exact .cons ⟨itemText_rounded w p x, itemText_filled w p x⟩ ih

theorem joinComma_eq (ts : List (List Char)) : joinComma ts = commaLine ts := by
  induction ts with
  | nil => rfl
  | cons t ts ih =>
    cases ts with
    | nil => rfl
    | cons s ts => rw [joinComma, commaLine, ih] <;> simp

theorem mapM_pure {α β : Type} {f : α → Py β} {h : α → β} (hf : ∀ a, f a = .ok (h a)) (l : List α) : l.mapM f = .ok (l.map h) := by
  induction l with
  | nil => rfl
  | cons a l ih => rw [List.mapM_cons, hf, py_bind_ok, ih]; rfl

theorem eigsText_eq {g : Glb} {w p : ℕ} (hw : g.rel_wid = w) (hp : g.rel_pre = p) (L : Int) (xs : List ℝ) :
    eigsText g L xs = .ok ("  At L=".toList ++ (List.replicate (2 - (dec L).length) ' ' ++ dec L) ++ ": [".toList ++
      commaLine (xs.map (itemText w p)) ++ "]".toList) := by
  unfold eigsText
  have h := format_2d L
  cases hq : parseSpec "2d".toList with
  | error e => rw [hq] at h; cases h
  | ok f =>
    rw [hq, py_bind_ok] at h
    rw [py_bind_ok, h, py_bind_ok, mapM_pure (fun x => format_item hw hp x), py_bind_ok, joinComma_eq]
    rfl

theorem numFormat_eq : numFormat = ['{', ':', 'd', '}'] := rfl

/-- A template with two fields, in whatever way it is written. -/
def Splits2 (m m0 m1 m2 : List Char) : Prop :=
  Plain m0 ∧ Plain m1 ∧ Plain m2 ∧ ∀ a b, pyFormat m [.str a, .str b] = .ok (m0 ++ (a ++ (m1 ++ (b ++ m2))))

theorem splits2_template {m0 m1 m2 : List Char} (h0 : Plain m0) (h1 : Plain m1) (h2 : Plain m2) :
    Splits2 (template2 m0 m1 m2) m0 m1 m2 := ⟨h0, h1, h2, format2 h0 h1 h2⟩

theorem plain_append {a b : List Char} (ha : Plain a) (hb : Plain b) : Plain (a ++ b) := by
  obtain ⟨a1, a2⟩ := ha
  obtain ⟨b1, b2⟩ := hb
  constructor <;> simp [*]

theorem melText_eq {g : Glb} {w p : ℕ} (hw : g.rel_wid = w) (hp : g.rel_pre = p) {m m0 m1 m2 l0 l1 l2 l3 l4 : List Char}
    (hm : Splits2 m m0 m1 m2) (ht : g.tran_format.toList = template4 l0 l1 l2 l3 l4) (h0 : Plain l0) (h1 : Plain l1) (h2 : Plain l2)
    (h3 : Plain l3) (h4 : Plain l4) (L1 n1 L2 n2 : Int) (x : ℝ) :
    melText g m L1 n1 L2 n2 x = .ok (m0 ++ (l0 ++ (dec L1 ++ (l1 ++ (dec n1 ++ (l2 ++ (dec L2 ++ (l3 ++ (dec n2 ++ l4)))))))) ++ m1 ++
      itemText w p x ++ m2) := by
  obtain ⟨p0, p1, p2, hm⟩ := hm
  unfold melText mel_f1
  rw [ht, format4 h0 h1 h2 h3 h4, py_bind_ok, hm, py_bind_ok]
  have e : m0 ++ ((l0 ++ (numFormat ++ (l1 ++ (numFormat ++ (l2 ++ (numFormat ++ (l3 ++ (numFormat ++ l4)))))))) ++
      (m1 ++ (item_format g ++ m2))) = TSeg.render [.lit (m0 ++ l0), .fld [':', 'd'], .lit l1, .fld [':', 'd'], .lit l2,
        .fld [':', 'd'], .lit l3, .fld [':', 'd'], .lit (l4 ++ m1), .fld (':' :: itemSpec g), .lit m2] := by
    simp [TSeg.render, numFormat, item_format]
  have hi := itemSpec_plain hw hp
  have hx : (do let f ← parseSpec (':' :: itemSpec g).tail; formatArg f (.flt x)) = .ok (itemText w p x) := format_item hw hp x
  rw [e, format_segs]
  · have := eval_lit [.int L1, .int n1, .int L2, .int n2, .flt x] (m0 ++ l0) _ 0 (eval_fld _ [':', 'd'] _ 0 rfl (format_d L1)
      (eval_lit _ l1 _ 1 (eval_fld _ [':', 'd'] _ 1 rfl (format_d n1) (eval_lit _ l2 _ 2 (eval_fld _ [':', 'd'] _ 2 rfl (format_d L2)
      (eval_lit _ l3 _ 3 (eval_fld _ [':', 'd'] _ 3 rfl (format_d n2) (eval_lit _ (l4 ++ m1) _ 4
      (eval_fld _ (':' :: itemSpec g) _ 4 rfl hx (eval_lit _ m2 [] 5 rfl))))))))))
    rw [this]
    simp
  · have hd : Plain [':', 'd'] := by constructor <;> decide
    have hc : Plain (':' :: itemSpec g) := plain_append (a := [':']) (by constructor <;> decide) hi
    simp [TSeg.Ok, plain_append p0 h0, h1, h2, h3, plain_append h4 p1, p2, hd, hc]

theorem format_s (s : List Char) : (do let f ← parseSpec [':', 's'].tail; formatArg f (.str s)) = .ok s := by
  refine congrArg Except.ok (show s ++ List.replicate (0 - s.length) ' ' = _ from ?_)
  simp

theorem rowText_eq {g : Glb} {w p : ℕ} (hw : g.rel_wid = w) (hp : g.rel_pre = p) {m m0 m1 m2 l0 l1 l2 l3 l4 : List Char}
    (hm : Splits2 m m0 m1 m2) (ht : g.tran_format.toList = template4 l0 l1 l2 l3 l4) (h0 : Plain l0) (h1 : Plain l1) (h2 : Plain l2)
    (h3 : Plain l3) (h4 : Plain l4) (hf : Plain g.tran_fill.toList) (L1 L2 n2 : Int) (xs : List ℝ) :
    rowText g m L1 L2 n2 xs = .ok (m0 ++ (l0 ++ (dec L1 ++ (l1 ++ (g.tran_fill.toList ++ (l2 ++ (dec L2 ++ (l3 ++ (dec n2 ++ l4)))))))) ++
      m1 ++ ('[' :: (commaLine (xs.map (itemText w p)) ++ [']'])) ++ m2) := by
  obtain ⟨p0, p1, p2, hm⟩ := hm
  have hi := itemSpec_plain hw hp
  have hc : Plain (':' :: itemSpec g) := plain_append (a := [':']) (by constructor <;> decide) hi
  have hitem : ∀ x : ℝ, pyFormat (item_format g) [.flt x] = .ok (itemText w p x) := by
    intro x
    have e : item_format g = TSeg.render [.fld (':' :: itemSpec g)] := by simp [item_format, TSeg.render]
    have hx : (do let f ← parseSpec (':' :: itemSpec g).tail; formatArg f (.flt x)) = .ok (itemText w p x) := format_item hw hp x
    rw [e, format_segs (by simp [TSeg.Ok, hc]), eval_fld [.flt x] _ [] 0 rfl hx rfl, List.append_nil]
  unfold rowText mel_f2
  rw [ht, format4 h0 h1 h2 h3 h4, py_bind_ok, hm, py_bind_ok, mapM_pure hitem, py_bind_ok, joinComma_eq]
  have e : m0 ++ ((l0 ++ (numFormat ++ (l1 ++ (g.tran_fill.toList ++ (l2 ++ (numFormat ++ (l3 ++ (numFormat ++ l4)))))))) ++
      (m1 ++ ("{:s}".toList ++ m2))) = TSeg.render [.lit (m0 ++ l0), .fld [':', 'd'], .lit (l1 ++ (g.tran_fill.toList ++ l2)),
        .fld [':', 'd'], .lit l3, .fld [':', 'd'], .lit (l4 ++ m1), .fld [':', 's'], .lit m2] := by
    simp [TSeg.render, numFormat]
  rw [e, format_segs]
  · have := eval_lit [.int L1, .int L2, .int n2, .str ('[' :: (commaLine (xs.map (itemText w p)) ++ [']']))] (m0 ++ l0) _ 0
      (eval_fld _ [':', 'd'] _ 0 rfl (format_d L1)
      (eval_lit _ (l1 ++ (g.tran_fill.toList ++ l2)) _ 1 (eval_fld _ [':', 'd'] _ 1 rfl (format_d L2)
      (eval_lit _ l3 _ 2 (eval_fld _ [':', 'd'] _ 2 rfl (format_d n2) (eval_lit _ (l4 ++ m1) _ 3
      (eval_fld _ [':', 's'] _ 3 rfl (format_s _) (eval_lit _ m2 [] 4 rfl))))))))
    rw [this]
    simp
  · have hd : Plain [':', 'd'] := by constructor <;> decide
    have hs : Plain [':', 's'] := by constructor <;> decide
    simp [TSeg.Ok, plain_append p0 h0, plain_append h1 (plain_append hf h2), h3, plain_append h4 p1, p2, hd, hs]

theorem splits2_mel : Splits2 def_mel_format "  ME( %".toList " ) = ".toList [] := by
  refine ⟨by constructor <;> decide, by constructor <;> decide, plain_nil, fun a b => ?_⟩
  have h1 : ∀ st, (st = .start ∨ st = .manual) → fmtField [.str a, .str b] ['0', '!', 's'] st = .ok (a, .manual) := by
    intro st hst
    have : fmtField [.str a, .str b] ['0', '!', 's'] st = .ok (a ++ List.replicate (0 - a.length) ' ', .manual) := by
      rcases hst with rfl | rfl <;> rfl
    simpa using this
  have h2 : fmtField [.str a, .str b] ['1', '!', 's'] .manual = .ok (b, .manual) := by
    have : fmtField [.str a, .str b] ['1', '!', 's'] .manual = .ok (b ++ List.replicate (0 - b.length) ' ', .manual) := rfl
    simpa using this
  have e : def_mel_format = "  ME( %".toList ++ ('{' :: (['0', '!', 's'] ++ '}' :: (" ) = ".toList ++ ('{' :: (['1', '!', 's'] ++ '}' :: []))))) := rfl
  unfold pyFormat
  rw [e, fmtGo_lit (by constructor <;> decide), fmtGo_open (by constructor <;> decide), h1 _ (.inl rfl), py_bind_ok]
  simp only
  rw [fmtGo_lit (by constructor <;> decide), fmtGo_open (by constructor <;> decide), h2, py_bind_ok]
  simp only [fmtGo]
  show Except.ok _ = _
  simp

/-! ## reading -/

/-- The number that a text writes is determined by the text. -/
theorem decText_value {t : List Char} {p : ℕ} {q : ℝ} (h : DecText t p q) :
    q = (if '-' ∈ t then -1 else 1) * (digitsNat (t.filter Char.isDigit) : ℝ) / 10 ^ p := by
  obtain ⟨k, neg, whole, frac, e, -, hl, hd, hq⟩ := h
  have hw : ∀ c ∈ whole, c.isDigit = true := fun c hc => hd c (List.mem_append_left _ hc)
  have hf : ∀ c ∈ frac, c.isDigit = true := fun c hc => hd c (List.mem_append_right _ hc)
  have h1 : t.filter Char.isDigit = whole ++ frac := by
    have e1 : (List.replicate k ' ').filter Char.isDigit = [] := by simp
    have e2 : (if neg then ['-'] else [] : List Char).filter Char.isDigit = [] := by cases neg <;> rfl
    have e3 : (if p = 0 then [] else '.' :: frac : List Char).filter Char.isDigit = frac := by
      split_ifs with hp
      · rw [hp] at hl
        rw [List.length_eq_zero_iff.1 hl]
        rfl
      · rw [List.filter_cons_of_neg (by decide), List.filter_eq_self.2 hf]
    rw [e, List.filter_append, List.filter_append, List.filter_append, e1, e2, e3, List.filter_eq_self.2 hw]
    rfl
  have h2 : '-' ∈ t ↔ neg = true := by
    have n1 : '-' ∉ whole := fun h => absurd (hw _ h) (by decide)
    have n2 : '-' ∉ frac := fun h => absurd (hf _ h) (by decide)
    have n3 : '-' ∉ (if p = 0 then [] else '.' :: frac : List Char) := by split_ifs <;> simp [n2]
    rw [e]
    cases neg <;> simp [n1, n3]
  rw [hq, h1]
  by_cases hn : neg = true
  · rw [if_pos hn, if_pos (h2.2 hn)]; rfl
  · rw [if_neg hn, if_neg (fun h => hn (h2.1 h))]; rfl

theorem decText_unique {t : List Char} {p : ℕ} {q r : ℝ} (h : DecText t p q) (h' : DecText t p r) : q = r :=
  (decText_value h).trans (decText_value h').symm

theorem decText_chars {t : List Char} {p : ℕ} {q : ℝ} (h : DecText t p q) : t ≠ [] ∧ ∀ c ∈ t, c = ' ' ∨ c = '-' ∨ c = '.' ∨ c.isDigit = true := by
  obtain ⟨k, neg, whole, frac, e, hne, -, hd, -⟩ := h
  refine ⟨fun h => ?_, fun c hc => ?_⟩
  · rw [e] at h
    simp only [List.append_eq_nil_iff] at h
    exact hne h.2.2.1
  · rw [e] at hc
    rcases List.mem_append.1 hc with hc | hc
    · exact .inl (List.mem_replicate.1 hc).2
    rcases List.mem_append.1 hc with hc | hc
    · cases neg <;> simp at hc
      exact .inr (.inl hc)
    rcases List.mem_append.1 hc with hc | hc
    · exact .inr (.inr (.inr (hd c (List.mem_append_left _ hc))))
    split_ifs at hc
    · cases hc
    · rcases List.mem_cons.1 hc with rfl | hc
      · exact .inr (.inr (.inl rfl))
      · exact .inr (.inr (.inr (hd c (List.mem_append_right _ hc))))

theorem split_at {p : Char → Bool} {a b s t : List Char} {c : Char} (ha : ∀ x ∈ a, p x = true) (hb : ∀ x ∈ b, p x = true) (hc : p c = false)
    (h : a ++ c :: s = b ++ c :: t) : a = b ∧ s = t := by
  have e1 : (a ++ c :: s).takeWhile p = a := by
    rw [List.takeWhile_append_of_pos ha, List.takeWhile_cons_of_neg (by simp [hc]), List.append_nil]
  have e2 : (b ++ c :: t).takeWhile p = b := by
    rw [List.takeWhile_append_of_pos hb, List.takeWhile_cons_of_neg (by simp [hc]), List.append_nil]
  have : a = b := by rw [← e1, h, e2]
  subst this
  exact ⟨rfl, by simpa using h⟩

/-- Texts without commas can be read from the line. -/
theorem commaLine_inj : ∀ {ts us : List (List Char)}, (∀ t ∈ ts, t ≠ [] ∧ ',' ∉ t) → (∀ t ∈ us, t ≠ [] ∧ ',' ∉ t) →
    commaLine ts = commaLine us → ts = us
  | [], [], _, _, _ => rfl
  | [], [u], _, h', h => absurd h.symm (h' u (by simp)).1
  | [], u :: v :: us, _, _, h => by simp [commaLine] at h
  | [t], [], h, _, e => absurd e (h t (by simp)).1
  | t :: s :: ts, [], _, _, h => by simp [commaLine] at h
  | [t], [u], _, _, h => by simp only [commaLine] at h; rw [h]
  | [t], u :: v :: us, h, _, e => by
    simp only [commaLine] at e
    exact absurd (by rw [e]; simp) (h t (by simp)).2
  | t :: s :: ts, [u], _, h', e => by
    simp only [commaLine] at e
    exact absurd (by rw [← e]; simp) (h' u (by simp)).2
  | t :: s :: ts, u :: v :: us, h, h', e => by
    simp only [commaLine] at e
    obtain ⟨e1, e2⟩ := split_at (p := fun c => decide (c ≠ ',')) (fun x hx => by simp; rintro rfl; exact (h t (by simp)).2 hx)
      (fun x hx => by simp; rintro rfl; exact (h' u (by simp)).2 hx) (by simp) e
    rw [e1, commaLine_inj (fun x hx => h x (List.mem_cons_of_mem _ hx)) (fun x hx => h' x (List.mem_cons_of_mem _ hx)) e2]

theorem dec_chars (n : Int) : ∀ c ∈ dec n, c = '-' ∨ c.isDigit = true := by
  intro c hc
  cases n with
  | ofNat n => exact .inr (toDigits_isDigit hc)
  | negSucc n =>
    rcases List.mem_cons.1 hc with h | h
    · exact .inl h
    · exact .inr (toDigits_isDigit h)

theorem eigLine_inj {L M : Int} {ts us : List (List Char)} (ht : ∀ t ∈ ts, t ≠ [] ∧ ',' ∉ t) (hu : ∀ t ∈ us, t ≠ [] ∧ ',' ∉ t)
    (h : eigLine L ts = eigLine M us) : L = M ∧ ts = us := by
  unfold eigLine at h
  have h := List.append_cancel_right h
  simp only [List.append_assoc] at h
  have h := List.append_cancel_left h
  have e : ": [".toList = ':' :: " [".toList := rfl
  rw [e, List.cons_append, List.cons_append, ← List.append_assoc, ← List.append_assoc] at h
  have hch : ∀ n : Int, ∀ x ∈ List.replicate (2 - (dec n).length) ' ' ++ dec n, decide (x ≠ ':') = true := by
    intro n x hx
    simp only [decide_eq_true_eq]
    rintro rfl
    rcases List.mem_append.1 hx with hx | hx
    · exact absurd (List.mem_replicate.1 hx).2 (by decide)
    · rcases dec_chars n _ hx with h | h
      · exact absurd h (by decide)
      · exact absurd h (by decide)
  obtain ⟨h1, h2⟩ := split_at (p := fun c => decide (c ≠ ':')) (hch L) (hch M) (by simp) h
  refine ⟨?_, commaLine_inj ht hu (List.append_cancel_left h2)⟩
  have hfil : ∀ n : Int, (List.replicate (2 - (dec n).length) ' ' ++ dec n).filter (fun c => decide (c ≠ ' ')) = dec n := by
    intro n
    rw [List.filter_append, List.filter_eq_nil_iff.2, List.nil_append, List.filter_eq_self.2]
    · intro c hc
      simp only [decide_eq_true_eq]
      rintro rfl
      rcases dec_chars n _ hc with h | h <;> exact absurd h (by decide)
    · intro c hc
      rw [(List.mem_replicate.1 hc).2]
      decide
  exact dec_inj ((hfil L).symm.trans ((congrArg _ h1).trans (hfil M)))

/-! ## the list of designators -/

theorem tran4 : "{}({}) -> {}({})".toList = template4 [] "(".toList ") -> ".toList "(".toList ")".toList := rfl

theorem tran_segs (a b c d : List Char) : pyFormat "{}({}) -> {}({})".toList [.str a, .str b, .str c, .str d] = .ok (arrowLine a b c d) := by
  rw [tran4, format4 plain_nil (by constructor <;> decide) (by constructor <;> decide) (by constructor <;> decide) (by constructor <;> decide)]
  simp [arrowLine]

end Acm
