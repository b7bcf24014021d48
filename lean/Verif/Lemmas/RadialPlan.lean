import Verif.Lemmas.RadialSplits
import Mathlib.Algebra.Order.Ring.Cast
import Mathlib.Algebra.Order.Group.Unbundled.Abs
import Mathlib.Tactic.Push

/-! The formal run of `RepRadial_bS_DS`. -/

set_option linter.unusedSectionVars false

namespace Acm
open Spec

section
variable {F : Type} [Field F] {W : Type} [Monoid W]

theorem wordOf_append (I : Interp W) (xs ys : List (Prim × F)) :
    wordOf I (xs ++ ys) = wordOf I xs * wordOf I ys := by
  simp [wordOf]

@[simp] theorem wordOf_nil (I : Interp W) : wordOf I ([] : List (Prim × F)) = 1 := rfl
@[simp] theorem wordOf_cons (I : Interp W) (x : Prim × F) (xs : List (Prim × F)) :
    wordOf I (x :: xs) = x.1.word I * wordOf I xs := by simp [wordOf]

theorem chain_append {xs ys : List (Prim × F)} {a c d : F} (h1 : Chain ys a c)
    (h2 : Chain xs c d) : Chain (xs ++ ys) a d := by
  induction xs generalizing d with
  | nil => simp only [Chain] at h2; subst h2; simpa using h1
  | cons x xs ih =>
    obtain ⟨h3, h4⟩ := h2
    exact ⟨ih h3, h4⟩

/-- Letter number `i` (1-based) of `beta^K (d/dbeta)^T`. -/
def letter (I : Interp W) (K : Int) (i : Nat) : W :=
  if (i : Int) ≤ K then I.b else if (i : Int) ≤ -K then ↑(I.b⁻¹) else I.D

def letterExpo (K : Int) (i : Nat) : Int := if (i : Int) ≤ K then -1 else 1

/-- The product of the first `i` letters. -/
def prefixWord (I : Interp W) (K : Int) : Nat → W
  | 0 => 1
  | i + 1 => prefixWord I K i * letter I K (i + 1)

def prefixExpo (K : Int) : Nat → Int
  | 0 => 0
  | i + 1 => prefixExpo K i + letterExpo K (i + 1)

theorem prefixWord_le (I : Interp W) (K : Int) (i : Nat) (h : i ≤ K.natAbs) :
    prefixWord I K i = if 0 ≤ K then ↑(I.b ^ i) else ↑((I.b⁻¹) ^ i) := by
  induction i with
  | zero => simp [prefixWord]
  | succ i ih =>
    rw [prefixWord, ih (by omega)]
    unfold letter
    by_cases hK : 0 ≤ K
    · rw [if_pos hK, if_pos hK, if_pos (by omega), pow_succ, Units.val_mul]
    · rw [if_neg hK, if_neg hK, if_neg (by omega), if_pos (by omega), pow_succ, Units.val_mul]

theorem prefixWord_full (I : Interp W) (K : Int) (t : Nat) :
    prefixWord I K (K.natAbs + t) = ↑(I.b ^ K) * I.D ^ t := by
  induction t with
  | zero =>
    rw [Nat.add_zero, prefixWord_le I K _ le_rfl]
    by_cases hK : 0 ≤ K
    · rw [if_pos hK]
      have : K = (K.natAbs : Int) := by omega
      conv_rhs => rw [this, zpow_natCast]
      simp
    · rw [if_neg hK]
      have : K = -(K.natAbs : Int) := by omega
      conv_rhs => rw [this, zpow_neg, zpow_natCast, ← inv_pow]
      simp
  | succ t ih =>
    rw [← Nat.add_assoc, prefixWord, ih]
    unfold letter
    rw [if_neg (by omega), if_neg (by omega), pow_succ, mul_assoc]

theorem prefixExpo_le (K : Int) (i : Nat) (h : i ≤ K.natAbs) :
    prefixExpo K i = if 0 ≤ K then -(i : Int) else i := by
  induction i with
  | zero => simp [prefixExpo]
  | succ i ih =>
    rw [prefixExpo, ih (by omega)]
    unfold letterExpo
    split_ifs <;> omega

theorem prefixExpo_full (K : Int) (t : Nat) : prefixExpo K (K.natAbs + t) = t - K := by
  induction t with
  | zero => rw [Nat.add_zero, prefixExpo_le K _ le_rfl]; split_ifs <;> omega
  | succ t ih =>
    rw [← Nat.add_assoc, prefixExpo, ih]
    unfold letterExpo
    split_ifs <;> omega

end

section
variable {F : Type} [Field F] [LinearOrder F]

/-- What the selected matrix for factor `i` is. -/
structure Selected (K : Int) (s : List Int) (i : Nat) (hi : i ≤ s.length) (lam : F)
    (fs : List (Prim × F)) (e : Int) (imm : Nat) : Prop where
  chain : ∀ h : i - 1 < s.length, Chain fs lam (lam + ((s[i - 1] : Int) : F))
  at_lam : ∀ h : i - 1 < s.length, ∀ f ∈ fs, f.2 = lam ∧
    f.2 + (f.1.shift : F) = lam + ((s[i - 1] : Int) : F)
  cases : (imm = 1 ∧ (∀ (W : Type) [Monoid W] (I : Interp W), wordOf I fs = letter I K i) ∧
      e = letterExpo K i ∧
      ∀ (h1 : i - 1 < s.length) (h2 : i - 2 < s.length), ¬ (2 ≤ i ∧ s[i - 1] = 0 ∧ s[i - 2] = 0)) ∨
    (imm = 2 ∧ 2 ≤ i ∧ (∀ h1 : i - 1 < s.length, s[i - 1] = 0) ∧
      (∀ h2 : i - 2 < s.length, s[i - 2] = 0) ∧
      (∀ (W : Type) [Monoid W] (I : Interp W), wordOf I fs = letter I K (i - 1) * letter I K i) ∧
      e = letterExpo K (i - 1) + letterExpo K i)

theorem select_formal (K : Int) (s : List Int) (i : Nat) (h0 : 1 ≤ i) (hi : i ≤ s.length)
    (hu : ∀ y ∈ s, y = -1 ∨ y = 0 ∨ y = 1)
    (hg : K < 0 → i = K.natAbs + 1 → 2 ≤ i → ∀ (h1 : i - 1 < s.length) (h2 : i - 2 < s.length),
      ¬ (s[i - 1] = 0 ∧ s[i - 2] = 0)) (lam : F) :
    ∃ fs e imm, bS_DS_select (formal F) K s i lam = .ok (⟨fs, e⟩, imm) ∧
      Selected K s i hi lam fs e imm := by
  have hlt : i - 1 < s.length := by omega
  have g1 : pyGet s ((i : Int) - 1) = .ok s[i - 1] := pyGet_int s _ (i - 1) (by omega) hlt
  have hk := abs_natAbs K
  have hs := hu s[i - 1] (List.getElem_mem hlt)
  unfold bS_DS_select
  rw [g1]
  simp only [py_bind_ok, formal, py_pure, py_throw]
  by_cases hp : s[i - 1] > 0
  · have h1 : s[i - 1] = 1 := by omega
    rw [if_pos hp]
    by_cases hK : (i : Int) ≤ K
    · rw [if_pos hK, pyAssert_ok (by simp; omega)]
      refine ⟨_, _, _, rfl, ?_, ?_, Or.inl ⟨rfl, ?_, ?_, ?_⟩⟩
      · intro _; simp [Chain, Prim.shift, h1]
      · intro _; simp [Prim.shift, h1]
      · intro W _ I; simp [Prim.word, letter, hK]
      · simp [letterExpo, hK]
      · intro _ _; omega
    · rw [if_neg hK]
      by_cases hK' : (i : Int) ≤ -K
      · rw [if_pos hK', pyAssert_ok (by simp; omega)]
        refine ⟨_, _, _, rfl, ?_, ?_, Or.inl ⟨rfl, ?_, ?_, ?_⟩⟩
        · intro _; simp [Chain, Prim.shift, h1]
        · intro _; simp [Prim.shift, h1]
        · intro W _ I; simp [Prim.word, letter, hK, hK']
        · simp [letterExpo, hK]
        · intro _ _; omega
      · rw [if_neg hK', pyAssert_ok (by simp; omega)]
        refine ⟨_, _, _, rfl, ?_, ?_, Or.inl ⟨rfl, ?_, ?_, ?_⟩⟩
        · intro _; simp [Chain, Prim.shift, h1]
        · intro _; simp [Prim.shift, h1]
        · intro W _ I; simp [Prim.word, letter, hK, hK']
        · simp [letterExpo, hK]
        · intro _ _; omega
  · rw [if_neg hp]
    by_cases hn : s[i - 1] < 0
    · have h1 : s[i - 1] = -1 := by omega
      rw [if_pos hn]
      by_cases hK : (i : Int) ≤ K
      · rw [if_pos hK, pyAssert_ok (by simp; omega)]
        refine ⟨_, _, _, rfl, ?_, ?_, Or.inl ⟨rfl, ?_, ?_, ?_⟩⟩
        · intro _; simp [Chain, Prim.shift, h1]
        · intro _; simp [Prim.shift, h1]
        · intro W _ I; simp [Prim.word, letter, hK]
        · simp [letterExpo, hK]
        · intro _ _; omega
      · rw [if_neg hK]
        by_cases hK' : (i : Int) ≤ -K
        · rw [if_pos hK', pyAssert_ok (by simp; omega)]
          refine ⟨_, _, _, rfl, ?_, ?_, Or.inl ⟨rfl, ?_, ?_, ?_⟩⟩
          · intro _; simp [Chain, Prim.shift, h1]
          · intro _; simp [Prim.shift, h1]
          · intro W _ I; simp [Prim.word, letter, hK, hK']
          · simp [letterExpo, hK]
          · intro _ _; omega
        · rw [if_neg hK', pyAssert_ok (by simp; omega)]
          refine ⟨_, _, _, rfl, ?_, ?_, Or.inl ⟨rfl, ?_, ?_, ?_⟩⟩
          · intro _; simp [Chain, Prim.shift, h1]
          · intro _; simp [Prim.shift, h1]
          · intro W _ I; simp [Prim.word, letter, hK, hK']
          · simp [letterExpo, hK]
          · intro _ _; omega
    · have h1 : s[i - 1] = 0 := by omega
      rw [if_neg hn]
      by_cases hz : i > 1 ∧ pyGet s ((i : Int) - 2) = .ok 0
      · have hlt2 : i - 2 < s.length := by omega
        have h2 : s[i - 2] = 0 := by
          have := hz.2
          rw [pyGet_int s _ (i - 2) (by omega) hlt2] at this
          injection this
        have h2i : 2 ≤ i := by omega
        rw [if_pos hz]
        by_cases hK : (i : Int) ≤ K
        · rw [if_pos hK, pyAssert_ok (by simp; omega)]
          refine ⟨_, _, _, rfl, ?_, ?_, Or.inr ⟨rfl, h2i, fun _ => h1, fun _ => h2, ?_, ?_⟩⟩
          · intro _; simp [Chain, Prim.shift, h1]
          · intro _; simp [Prim.shift, h1]
          · intro W _ I
            have : ((i - 1 : Nat) : Int) ≤ K := by omega
            simp [Prim.word, letter, hK, this]
          · have : ((i - 1 : Nat) : Int) ≤ K := by omega
            simp [letterExpo, hK, this]
        · rw [if_neg hK]
          by_cases hK' : (i : Int) ≤ -K
          · rw [if_pos hK', pyAssert_ok (by simp; omega)]
            have e1 : ¬ ((i - 1 : Nat) : Int) ≤ K := by omega
            have e2 : ((i - 1 : Nat) : Int) ≤ -K := by omega
            refine ⟨_, _, _, rfl, ?_, ?_, Or.inr ⟨rfl, h2i, fun _ => h1, fun _ => h2, ?_, ?_⟩⟩
            · intro _; simp [Chain, Prim.shift, h1]
            · intro _; simp [Prim.shift, h1]
            · intro W _ I
              simp [Prim.word, letter, hK, hK', e1, e2]
            · simp [letterExpo, hK, e1]
          · rw [if_neg hK']
            by_cases hK1 : (i : Int) = K + 1
            · rw [if_pos hK1, pyAssert_ok (by simp; omega)]
              have e1 : ((i - 1 : Nat) : Int) ≤ K := by omega
              refine ⟨_, _, _, rfl, ?_, ?_, Or.inr ⟨rfl, h2i, fun _ => h1, fun _ => h2, ?_, ?_⟩⟩
              · intro _; simp [Chain, Prim.shift, h1]
              · intro _; simp [Prim.shift, h1]
              · intro W _ I
                simp [Prim.word, letter, hK, hK', e1]
              · simp [letterExpo, hK, e1]
            · rw [if_neg hK1, if_neg (by omega)]
              have hb : ¬ (K < 0 ∧ i = K.natAbs + 1) := fun ⟨ha, hb⟩ =>
                hg ha hb h2i hlt hlt2 ⟨h1, h2⟩
              have e1 : ¬ ((i - 1 : Nat) : Int) ≤ K := by omega
              have e2 : ¬ ((i - 1 : Nat) : Int) ≤ -K := by omega
              refine ⟨_, _, _, rfl, ?_, ?_, Or.inr ⟨rfl, h2i, fun _ => h1, fun _ => h2, ?_, ?_⟩⟩
              · intro _; simp [Chain, Prim.shift, h1]
              · intro _; simp [Prim.shift, h1]
              · intro W _ I
                simp [Prim.word, letter, hK, hK', e1, e2]
              · simp [letterExpo, hK, e1]
      · rw [if_neg hz]
        have hz' : ∀ (h1 : i - 1 < s.length) (h2 : i - 2 < s.length),
            ¬ (2 ≤ i ∧ s[i - 1] = 0 ∧ s[i - 2] = 0) := by
          rintro _ h2 ⟨h3, _, h5⟩
          apply hz
          refine ⟨by omega, ?_⟩
          rw [pyGet_int s _ (i - 2) (by omega) h2, h5]
        by_cases hK : (i : Int) ≤ K
        · rw [if_pos hK, pyAssert_ok (by simp; omega)]
          refine ⟨_, _, _, rfl, ?_, ?_, Or.inl ⟨rfl, ?_, ?_, hz'⟩⟩
          · intro _; simp [Chain, Prim.shift, h1]
          · intro _; simp [Prim.shift, h1]
          · intro W _ I; simp [Prim.word, letter, hK]
          · simp [letterExpo, hK]
        · rw [if_neg hK]
          by_cases hK' : (i : Int) ≤ -K
          · rw [if_pos hK', pyAssert_ok (by simp; omega)]
            refine ⟨_, _, _, rfl, ?_, ?_, Or.inl ⟨rfl, ?_, ?_, hz'⟩⟩
            · intro _; simp [Chain, Prim.shift, h1]
            · intro _; simp [Prim.shift, h1]
            · intro W _ I; simp [Prim.word, letter, hK, hK']
            · simp [letterExpo, hK]
          · rw [if_neg hK', pyAssert_ok (by simp; omega)]
            refine ⟨_, _, _, rfl, ?_, ?_, Or.inl ⟨rfl, ?_, ?_, hz'⟩⟩
            · intro _; simp [Chain, Prim.shift, h1]
            · intro _; simp [Prim.shift, h1]
            · intro W _ I; simp [Prim.word, letter, hK, hK']
            · simp [letterExpo, hK]

/-- The loop may visit factor `i`: no zero pair straddles the border there. -/
def LoopCond (K : Int) (s : List Int) (i : Nat) : Prop :=
  K < 0 →
    (∀ (h1 : K.natAbs < s.length) (h0 : K.natAbs - 1 < s.length),
      ¬ (s[K.natAbs] = 0 ∧ s[K.natAbs - 1] = 0)) ∨
    ((∀ (j : Nat) (h : j < s.length), K.natAbs ≤ j → s[j] = 0) ∧
      (i ≤ K.natAbs ∨ (i - K.natAbs) % 2 = 0))

/-- Where the factors are requested: at suffix sums of the split list. -/
def AtSuf (s : List Int) (lam0 : F) (f : Prim × F) : Prop :=
  (∃ j, f.2 = lam0 + (sufSum s j : F)) ∧ ∃ j, f.2 + (f.1.shift : F) = lam0 + (sufSum s j : F)

theorem loop_formal (K : Int) (s : List Int) (lamX : Int)
    (hu : ∀ y ∈ s, y = -1 ∨ y = 0 ∨ y = 1) (lam0 : F) :
    ∀ (i : Nat), i ≤ s.length → LoopCond K s i → ∀ (acc : Option (FormalProd F)),
      (acc = none ↔ (i = s.length ∧ 0 ≤ lamX)) →
      ∃ fs e, bS_DS_loop (formal F) K s s.length lamX i (lam0 + (sufSum s i : F)) acc
          = .ok (lam0 + (s.sum : F),
              if i = 0 then acc else some ⟨fs ++ (acc.getD ⟨[], 0⟩).factors,
                e + (acc.getD ⟨[], 0⟩).expo⟩) ∧
        Chain fs (lam0 + (sufSum s i : F)) (lam0 + (s.sum : F)) ∧
        (∀ (W : Type) [Monoid W] (I : Interp W), wordOf I fs = prefixWord I K i) ∧
        e = prefixExpo K i ∧ (∀ f ∈ fs, AtSuf s lam0 f) ∧ (i = 0 → fs = []) := by
  intro i
  induction i using Nat.strong_induction_on with
  | _ i ih =>
    intro hi hc acc hacc
    match i, ih, hi, hc, hacc with
    | 0, _, _, _, _ =>
      refine ⟨[], 0, ?_, ?_, ?_, rfl, by simp, fun _ => rfl⟩
      · rw [sufSum_zero]; rfl
      · simp [Chain, sufSum_zero]
      · intro W _ I; rfl
    | i + 1, ih, hi, hc, hacc =>
      have hlt : i < s.length := by omega
      have hg : K < 0 → i + 1 = K.natAbs + 1 → 2 ≤ i + 1 →
          ∀ (h1 : i + 1 - 1 < s.length) (h2 : i + 1 - 2 < s.length),
            ¬ (s[i + 1 - 1] = 0 ∧ s[i + 1 - 2] = 0) := by
        intro hK hik _ h1 h2
        have hik' : i = K.natAbs := by omega
        rcases hc hK with h | ⟨_, h | h⟩
        · have := h (by omega) (by omega)
          simpa [hik'] using this
        · omega
        · omega
      obtain ⟨fs, e, imm, hsel, hS⟩ := select_formal K s (i + 1) (by omega) hi hu hg
        (lam0 + (sufSum s (i + 1) : F))
      have hstep : sufSum s i = s[i] + sufSum s (i + 1) := sufSum_step s i hlt
      have hstepF : lam0 + (sufSum s (i + 1) : F) + ((s[i] : Int) : F)
          = lam0 + (sufSum s i : F) := by
        rw [hstep]; push_cast; ring
      have hchain := hS.chain (by omega)
      simp only [Nat.add_sub_cancel] at hchain
      have hat := hS.at_lam (by omega)
      simp only [Nat.add_sub_cancel] at hat
      rw [hstepF] at hchain
      have hAt : ∀ f ∈ fs, AtSuf s lam0 f := by
        intro f hf
        obtain ⟨h1, h2⟩ := hat f hf
        exact ⟨⟨_, h1⟩, ⟨i, by rw [h2, hstepF]⟩⟩
      have hupd : bS_DS_update (formal F) s.length lamX (i + 1) ⟨fs, e⟩ acc
          = .ok ⟨fs ++ (acc.getD ⟨[], 0⟩).factors, e + (acc.getD ⟨[], 0⟩).expo⟩ := by
        unfold bS_DS_update
        by_cases h : i + 1 = s.length ∧ lamX ≥ 0
        · rw [if_pos h]
          have : acc = none := hacc.2 ⟨h.1, h.2⟩
          simp [this]
        · rw [if_neg h]
          cases hacc' : acc with
          | none => exact absurd (hacc.1 hacc') h
          | some P => rfl
      rw [bS_DS_loop, hsel]
      simp only [py_bind_ok]
      rw [hupd, pyGet_nat s i hlt]
      simp only [py_bind_ok, hstepF]
      rcases hS.cases with ⟨rfl, hw, he, hnz⟩ | ⟨rfl, h2i, hz1, hz2, hw, he⟩
      · rw [if_pos rfl]
        have hc' : LoopCond K s i := by
          intro hK
          rcases hc hK with h | ⟨h, h'⟩
          · exact Or.inl h
          · right
            refine ⟨h, ?_⟩
            rcases h' with h' | h'
            · left; omega
            · by_cases hle : i ≤ K.natAbs
              · left; exact hle
              · exfalso
                have h3 := hnz (by omega) (by omega)
                apply h3
                refine ⟨by omega, h _ _ (by omega), h _ _ (by omega)⟩
        obtain ⟨fs', e', h1, h2, h3, h4, h5, h6⟩ := ih i (by omega) (by omega) hc'
          (some ⟨fs ++ (acc.getD ⟨[], 0⟩).factors, e + (acc.getD ⟨[], 0⟩).expo⟩)
          ⟨fun h => by simp at h, fun h => by omega⟩
        refine ⟨fs' ++ fs, e' + e, ?_, chain_append hchain h2, ?_, ?_, ?_, by omega⟩
        · rw [h1]
          by_cases h0 : i = 0
          · subst h0
            rw [if_pos rfl, if_neg (by omega), h6 rfl, h4]
            simp [prefixExpo]
          · rw [if_neg h0, if_neg (by omega)]
            simp [List.append_assoc, Int.add_assoc]
        · intro W _ I
          rw [wordOf_append, h3, hw, prefixWord]
        · rw [h4, he, prefixExpo]
        · intro f hf
          simp only [List.mem_append] at hf
          rcases hf with hf | hf
          · exact h5 f hf
          · exact hAt f hf
      · rw [if_neg (by omega)]
        obtain ⟨j, rfl⟩ : ∃ j, i = j + 1 := ⟨i - 1, by omega⟩
        have hz2' : s[j]'(by omega) = 0 := hz2 (by omega)
        have hstep2 : sufSum s (j + 1) = sufSum s j := by
          rw [sufSum_step s j (by omega), hz2']; omega
        have hc' : LoopCond K s j := by
          intro hK
          rcases hc hK with h | ⟨h, h'⟩
          · exact Or.inl h
          · right
            refine ⟨h, ?_⟩
            rcases h' with h' | h'
            · left; omega
            · by_cases hle : j ≤ K.natAbs
              · left; exact hle
              · right; omega
        obtain ⟨fs', e', h1, h2, h3, h4, h5, h6⟩ := ih j (by omega) (by omega) hc'
          (some ⟨fs ++ (acc.getD ⟨[], 0⟩).factors, e + (acc.getD ⟨[], 0⟩).expo⟩)
          ⟨fun h => by simp at h, fun h => by omega⟩
        rw [hstep2] at hchain
        refine ⟨fs' ++ fs, e' + e, ?_, chain_append hchain h2, ?_, ?_, ?_, by omega⟩
        · simp only [hstep2]
          rw [h1]
          by_cases h0 : j = 0
          · subst h0
            rw [if_pos rfl, if_neg (by omega), h6 rfl, h4]
            simp [prefixExpo]
          · rw [if_neg h0, if_neg (by omega)]
            simp [List.append_assoc, Int.add_assoc]
        · intro W _ I
          rw [wordOf_append, h3, hw, prefixWord, prefixWord, mul_assoc]
          rfl
        · rw [h4, he, prefixExpo, prefixExpo, Int.add_assoc]
          rfl
        · intro f hf
          simp only [List.mem_append] at hf
          rcases hf with hf | hf
          · exact h5 f hf
          · exact hAt f hf

end

section
variable {F : Type} [Field F] [LinearOrder F] [IsStrictOrderedRing F]

/-- The lowest `lambda` reached, relative to the starting one. -/
def lowest (K T R : Int) : Int := if K < 0 ∧ R = 0 ∧ T % 2 = 1 then -1 else min 0 R

theorem bS_DS_formal (K T R : Int) (lam : F) (hT : 0 ≤ T) (h0 : 0 < lam) (h1 : 0 < lam + R) :
    ∃ p, RepRadial_bS_DS (formal F) K T lam R = .ok p ∧ Chain p.factors lam (lam + R) ∧
      (∀ (W : Type) [Monoid W] (I : Interp W), wordOf I p.factors = monomial I K T) ∧
      p.expo = T - K ∧
      ∀ f ∈ p.factors, lam + (lowest K T R : F) ≤ f.2 ∧
        lam + (lowest K T R : F) ≤ f.2 + (f.1.shift : F) := by
  have hk := abs_natAbs K
  unfold RepRadial_bS_DS bS_DS_finish
  rw [if_neg (by rintro (h | h) <;> exact absurd h (not_le.2 (by assumption)))]
  have castle : ∀ {a b : Int}, a ≤ b → lam + (a : F) ≤ lam + (b : F) := fun h =>
    by have : ((_ : Int) : F) ≤ _ := Int.cast_le.2 h
       linarith
  by_cases hodd : K = 0 ∧ T = 0 ∧ is_odd R = true
  · rw [if_pos hodd]
    obtain ⟨rfl, rfl, hR⟩ := hodd
    rw [is_odd_iff] at hR
    have hlow : lowest 0 0 R = min 0 R := by simp [lowest]
    rw [hlow]
    simp only [formal, py_pure, py_bind_ok]
    by_cases hneg : R < 0
    · rw [if_pos hneg]
      have hmin : min 0 R = R := by omega
      rw [hmin]
      by_cases hlt : R < -1
      · rw [if_pos hlt]
        have hfd : Int.fdiv (-(R + 1)) 2 = (-(R + 1)) / 2 :=
          Int.fdiv_eq_ediv_of_nonneg _ (by decide)
        have hhalf : -2 * (-(R + 1) / 2) = R + 1 := by omega
        refine ⟨_, rfl, ?_, ?_, by simp, ?_⟩
        · simp only [List.nil_append, List.cons_append, Chain, Prim.shift, hfd,
            hhalf]
          push_cast
          refine ⟨⟨⟨trivial, by ring⟩, by ring⟩, by ring⟩
        · intro W _ I
          simp [Prim.word, monomial]
        · have e1 := castle (a := R) (b := R + 1) (by omega)
          have e2 := castle (a := R) (b := 0) (by omega)
          push_cast at e1 e2
          simp only [List.nil_append, List.cons_append, List.mem_cons, List.not_mem_nil,
            or_false]
          rintro f (rfl | rfl | rfl) <;> simp only [Prim.shift, hfd, hhalf] <;> push_cast <;>
            constructor <;> linarith
      · rw [if_neg hlt]
        have hR1 : R = -1 := by omega
        subst hR1
        refine ⟨_, rfl, ?_, ?_, by simp, ?_⟩
        · simp [Chain, Prim.shift]
        · intro W _ I
          simp [Prim.word, monomial]
        · simp only [List.nil_append, List.cons_append, List.mem_cons, List.not_mem_nil,
            or_false]
          rintro f (rfl | rfl) <;> simp only [Prim.shift] <;> push_cast <;>
            constructor <;> linarith
    · rw [if_neg hneg]
      have hmin : min 0 R = 0 := by omega
      rw [hmin]
      by_cases hlt : R > 1
      · rw [if_pos hlt]
        have hfd : Int.fdiv (R - 1) 2 = (R - 1) / 2 :=
          Int.fdiv_eq_ediv_of_nonneg _ (by decide)
        have hhalf : 2 * ((R - 1) / 2) = R - 1 := by omega
        refine ⟨_, rfl, ?_, ?_, by simp, ?_⟩
        · simp only [List.nil_append, List.cons_append, Chain, Prim.shift, hfd,
            hhalf]
          push_cast
          refine ⟨⟨⟨trivial, by ring⟩, by ring⟩, by ring⟩
        · intro W _ I
          simp [Prim.word, monomial]
        · have e1 := castle (a := 0) (b := R - 1) (by omega)
          push_cast at e1
          simp only [List.nil_append, List.cons_append, List.mem_cons, List.not_mem_nil,
            or_false]
          rintro f (rfl | rfl | rfl) <;> simp only [Prim.shift, hfd, hhalf] <;> push_cast <;>
            constructor <;> linarith
      · rw [if_neg hlt]
        have hR1 : R = 1 := by omega
        subst hR1
        refine ⟨_, rfl, ?_, ?_, by simp, ?_⟩
        · simp [Chain, Prim.shift]
        · intro W _ I
          simp [Prim.word, monomial]
        · simp only [List.nil_append, List.cons_append, List.mem_cons, List.not_mem_nil,
            or_false]
          rintro f (rfl | rfl) <;> simp only [Prim.shift] <;> push_cast <;>
            constructor <;> linarith
  · rw [if_neg hodd]
    rw [is_odd_iff] at hodd
    obtain ⟨t, rfl⟩ : ∃ t : Nat, T = t := ⟨T.toNat, by omega⟩
    have hn : (|K| + (t : Int)).toNat = K.natAbs + t := by omega
    -- common facts about the loop
    have main : ∀ (x : Int) (body : List Int), GoodBody K t R x body →
        ∀ (lam1 : F) (acc : Option (FormalProd F)), (acc = none ↔ 0 ≤ x) →
        ∃ fs, bS_DS_loop (formal F) K body (K.natAbs + t) x (K.natAbs + t) lam1 acc
            = .ok (lam1 + (body.sum : F), if K.natAbs + t = 0 then acc else
                some ⟨fs ++ (acc.getD ⟨[], 0⟩).factors, t - K + (acc.getD ⟨[], 0⟩).expo⟩) ∧
          Chain fs lam1 (lam1 + (body.sum : F)) ∧
          (∀ (W : Type) [Monoid W] (I : Interp W), wordOf I fs = monomial I K t) ∧
          (∀ f ∈ fs, AtSuf body lam1 f) ∧ (K.natAbs + t = 0 → fs = []) := by
      intro x body hB lam1 acc hacc
      have hlen : body.length = K.natAbs + t := by rw [hB.len, hn]
      have hc : LoopCond K body body.length := by
        intro hK
        rcases hB.straddle hK with h | ⟨h, h'⟩
        · exact Or.inl h
        · right
          refine ⟨h', ?_⟩
          right; omega
      obtain ⟨fs, e, h1, h2, h3, h4, h5, h6⟩ := loop_formal K body x hB.unit lam1 body.length
        le_rfl hc acc ⟨fun h => ⟨rfl, hacc.1 h⟩, fun h => hacc.2 h.2⟩
      rw [sufSum_length _ _ le_rfl] at h1 h2
      simp only [Int.cast_zero, add_zero] at h1 h2
      rw [hlen] at h1 h3 h4 h6
      rw [prefixExpo_full] at h4
      subst h4
      refine ⟨fs, h1, h2, ?_, h5, h6⟩
      intro W _ I
      rw [h3, prefixWord_full]
      simp [monomial]
    have hlowest : ∀ (x : Int) (body : List Int), GoodBody K t R x body →
        (x ≠ 0 → R ≠ 0) → ∀ j, (lowest K t R ≤ sufSum body j) ∧
          (lowest K t R ≤ x + sufSum body j) := by
      intro x body hB hx j
      unfold lowest
      by_cases hsp : K < 0 ∧ R = 0 ∧ (t : Int) % 2 = 1
      · rw [if_pos hsp]
        have := hB.suf' hsp j
        have hx0 : x = 0 := by by_contra h; exact hx h hsp.2.1
        omega
      · rw [if_neg hsp]; exact hB.suf hsp j
    rcases Lambda_Splits_ok (K := K) (R := R) (T := (t : Int)) hT with
      ⟨body, hL, hB⟩ | ⟨x, body, hL, hx, hpar, hB⟩
    · have hlen : body.length = K.natAbs + t := by rw [hB.len, hn]
      obtain ⟨fs, e1, e2, e3, e4, e5⟩ := main 0 body hB lam none (by simp)
      have hlow := hlowest 0 body hB (by simp)
      have hsum : body.sum = R := by have := hB.sum; omega
      rw [hL]
      simp only [py_bind_ok, hn, hlen, gt_iff_lt, lt_irrefl, if_false, decide_true, pyAssert_true,
        py_pure]
      rw [e1]
      simp only [py_bind_ok, Option.getD_none, List.append_nil, add_zero, and_true]
      rw [hsum] at e2
      by_cases hn0 : K.natAbs + t = 0
      · have ht0 : t = 0 := by omega
        have hK0 : K = 0 := by omega
        subst ht0 hK0
        simp only [Int.natAbs_zero, add_zero, if_true]
        have hfs := e5 hn0
        subst hfs
        refine ⟨_, rfl, e2, ?_, by simp [formal], by simp [formal]⟩
        intro W _ I; exact e3 W I
      · simp only [if_neg hn0]
        refine ⟨_, rfl, e2, e3, rfl, ?_⟩
        intro f hf
        obtain ⟨⟨j1, hj1⟩, ⟨j2, hj2⟩⟩ := e4 f hf
        rw [hj2, hj1]
        exact ⟨castle (hlow j1).1, castle (hlow j2).1⟩
    · have hlen : body.length = K.natAbs + t := by rw [hB.len, hn]
      have hx0 : x ≠ 0 := by omega
      have heven : x % 2 = 0 := by
        rcases hpar with h | ⟨h1, h2, h3⟩
        · exact h
        · exact absurd ⟨h1, h2, h3⟩ hodd
      have hev : is_even x = true := (is_even_iff x).2 heven
      have hlow := hlowest x body hB (by omega)
      have hsum := hB.sum
      rw [hL]
      simp only [py_bind_ok, hn, List.length_cons, hlen, gt_iff_lt, Nat.lt_succ_self, if_true,
        List.headD_cons, List.tail_cons, decide_true, pyAssert_true, py_pure]
      rcases hx with ⟨hxp, hRp⟩ | ⟨hxn, hRn⟩
      · -- extra shift on the left
        obtain ⟨fs, e1, e2, e3, e4, e5⟩ := main x body hB lam none (by simp; omega)
        rw [if_neg (by omega)]
        rw [e1]
        simp only [py_bind_ok, Option.getD_none, List.append_nil, add_zero, if_pos hxp, hev,
          pyAssert_true, formal, py_pure]
        have hfd : Int.fdiv x 2 = x / 2 := Int.fdiv_eq_ediv_of_nonneg _ (by decide)
        have hh : 2 * (x / 2) = x := by omega
        have hch : Chain [(Prim.idPl (x.fdiv 2), lam + (body.sum : F))] (lam + (body.sum : F))
            (lam + (R : F)) := by
          refine ⟨rfl, ?_⟩
          simp only [Prim.shift, hfd, hh]
          rw [← hsum]; push_cast; ring
        have hid : lam + (lowest K t R : F) ≤ lam + (body.sum : F) ∧
            lam + (lowest K t R : F) ≤
              lam + (body.sum : F) + ((Prim.idPl (x.fdiv 2)).shift : F) := by
          have a1 := castle (hlow 0).1
          have a2 := castle (hlow 0).2
          rw [sufSum_zero] at a1 a2
          refine ⟨a1, ?_⟩
          simp only [Prim.shift, hfd, hh]
          push_cast at a2; linarith
        by_cases hn0 : K.natAbs + t = 0
        · have ht0 : t = 0 := by omega
          have hK0 : K = 0 := by omega
          subst ht0 hK0
          have hfs := e5 hn0
          subst hfs
          simp only [Int.natAbs_zero, add_zero, lt_irrefl, if_false, true_and,
            if_neg hx0]
          refine ⟨_, rfl, chain_append e2 hch, ?_, by simp, ?_⟩
          · intro W _ I
            have := e3 W I
            simp at this
            simp [Prim.word, ← this]
          · intro f hf
            simp only [List.mem_singleton] at hf
            subst hf
            exact hid
        · rw [if_pos (show 0 < K.natAbs + t by omega)]
          simp only [hn0, hx0, if_false, and_false]
          refine ⟨_, rfl, chain_append e2 hch, ?_, by simp, ?_⟩
          · intro W _ I
            rw [wordOf_append, e3]
            simp [Prim.word]
          · intro f hf
            simp only [List.cons_append, List.nil_append, List.mem_cons] at hf
            rcases hf with rfl | hf
            · exact hid
            · obtain ⟨⟨j1, hj1⟩, ⟨j2, hj2⟩⟩ := e4 f hf
              rw [hj2, hj1]
              exact ⟨castle (hlow j1).1, castle (hlow j2).1⟩
      · -- extra shift on the right
        have hfd : Int.fdiv (-x) 2 = (-x) / 2 := Int.fdiv_eq_ediv_of_nonneg _ (by decide)
        have hh : -2 * (-x / 2) = x := by omega
        obtain ⟨fs, e1, e2, e3, e4, e5⟩ := main x body hB (lam + (x : F))
          (some ⟨[(.idMl ((-x).fdiv 2), lam)], 0⟩) (by simp; omega)
        rw [if_pos hxn]
        simp only [hev, pyAssert_true, py_bind_ok, formal, py_pure] at e1 ⊢
        rw [e1]
        simp only [py_bind_ok, if_neg (show ¬ 0 < x by omega),
          hx0, and_false, if_false, Option.getD_some]
        have hch : Chain [(Prim.idMl ((-x).fdiv 2), lam)] lam (lam + (x : F)) := by
          refine ⟨rfl, ?_⟩
          simp only [Prim.shift, hfd, hh]
        have hend : lam + (x : F) + (body.sum : F) = lam + (R : F) := by
          rw [← hsum]; push_cast; ring
        rw [hend] at e2
        have hid : lam + (lowest K t R : F) ≤ lam ∧
            lam + (lowest K t R : F) ≤ lam + ((Prim.idMl ((-x).fdiv 2)).shift : F) := by
          have a1 := castle (hlow body.length).1
          have a2 := castle (hlow body.length).2
          rw [sufSum_length _ _ le_rfl] at a1 a2
          simp only [Prim.shift, hfd, hh]
          push_cast at a1 a2
          constructor <;> linarith
        by_cases hn0 : K.natAbs + t = 0
        · have hfs := e5 hn0
          subst hfs
          rw [if_pos hn0]
          have ht0 : t = 0 := by omega
          have hK0 : K = 0 := by omega
          subst ht0 hK0
          refine ⟨_, rfl, chain_append hch e2, ?_, by simp, ?_⟩
          · intro W _ I
            have := e3 W I
            simp at this
            simp [Prim.word, ← this]
          · intro f hf
            simp only [List.mem_singleton] at hf
            subst hf
            exact hid
        · rw [if_neg hn0]
          refine ⟨_, rfl, chain_append hch e2, ?_, by simp, ?_⟩
          · intro W _ I
            rw [wordOf_append, e3]
            simp [Prim.word]
          · intro f hf
            simp only [List.mem_append, List.mem_singleton] at hf
            rcases hf with hf | rfl
            · obtain ⟨⟨j1, hj1⟩, ⟨j2, hj2⟩⟩ := e4 f hf
              rw [hj2, hj1]
              have a1 := castle (hlow j1).2
              have a2 := castle (hlow j2).2
              push_cast at a1 a2
              constructor <;> linarith
            · exact hid

end

end Acm
