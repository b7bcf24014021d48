import Verif.Lemmas.RadialPlan

/-! Lemmas about `Parse_RadialOp_List`. -/

namespace Acm
open Spec

/-- The class invariant of `KTOp` and `SOp` objects: the constructors (radial_space.py
lines 1358-1363, 1381-1385) reject a negative `T` and an `S` outside `-1, 0, 1`. -/
def KTSOp.Valid : KTSOp → Prop
  | .KT _ T => 0 ≤ T
  | .S s => s = -1 ∨ s = 0 ∨ s = 1

section
variable {W : Type} [Monoid W]

/-- The operator that the state of the parser stands for. -/
def stateWord (I : Interp W) (s : ParseState) : W :=
  monomial I s.K s.T * (s.POp_List.map (opWord I)).prod

def stateExpo (s : ParseState) : Int := s.T - s.K + (s.POp_List.map opExpo).sum

theorem monomial_zero (I : Interp W) : monomial I 0 0 = 1 := by simp [monomial]

theorem monomial_zero_left (I : Interp W) (T : Int) : monomial I 0 T = I.D ^ T.toNat := by
  simp [monomial]

structure ParseInv (s : ParseState) : Prop where
  T_nonneg : 0 ≤ s.T
  valid : ∀ op ∈ s.POp_List, op.Valid

theorem parseFlush_ok (s : ParseState) (h : ParseInv s) :
    ∃ s', parseFlush s = .ok s' ∧ ParseInv s' ∧ s'.K = 0 ∧ s'.T = 0 ∧
      (∀ (W : Type) [Monoid W] (I : Interp W), stateWord I s' = stateWord I s) ∧
      stateExpo s' = stateExpo s := by
  unfold parseFlush
  by_cases hc : s.K ≠ 0 ∨ s.T > 0
  · rw [if_pos hc]
    unfold mkKTOp
    rw [require_nonnegint_ok h.T_nonneg]
    refine ⟨_, rfl, ⟨le_rfl, ?_⟩, rfl, rfl, ?_, ?_⟩
    · intro op hop
      simp only [List.mem_cons] at hop
      rcases hop with rfl | hop
      · exact h.T_nonneg
      · exact h.valid op hop
    · intro W _ I
      simp [stateWord, opWord, monomial_zero]
    · simp [stateExpo, opExpo]
  · rw [if_neg hc]
    have := h.T_nonneg
    refine ⟨s, rfl, h, by omega, by omega, fun _ _ _ => rfl, rfl⟩

theorem parseStep_ok (s : ParseState) (op : RadSym) (h : ParseInv s) (hop : op ≠ .other) :
    ∃ s', parseStep s op = .ok s' ∧ ParseInv s' ∧
      (∀ (W : Type) [Monoid W] (I : Interp W), stateWord I s' = symWord I op * stateWord I s) ∧
      stateExpo s' = symExpo op + stateExpo s := by
  have hT := h.T_nonneg
  -- the branch of the SU(1,1) generators
  have S_case : ∀ (sv : Int), (sv = -1 ∨ sv = 0 ∨ sv = 1) →
      ∃ s', (do let s ← parseFlush s
                pure { s with POp_List := KTSOp.S sv :: s.POp_List } : Py ParseState) = .ok s' ∧
        ParseInv s' ∧
        (∀ (W : Type) [Monoid W] (I : Interp W),
          stateWord I s' = opWord I (.S sv) * stateWord I s) ∧
        stateExpo s' = stateExpo s := by
    intro sv hsv
    obtain ⟨s1, e1, e2, e3, e4, e5, e6⟩ := parseFlush_ok s h
    rw [e1]
    refine ⟨_, rfl, ⟨e2.T_nonneg, ?_⟩, ?_, ?_⟩
    · intro op hop
      simp only [List.mem_cons] at hop
      rcases hop with rfl | hop
      · exact hsv
      · exact e2.valid op hop
    · intro W _ I
      rw [← e5]
      simp [stateWord, e3, e4, monomial_zero]
    · rw [← e6]
      simp [stateExpo, opExpo]
  -- the branch of d/dbeta
  have D_case : ∀ (d : Nat),
      ∃ s', (do
          let s ← if s.K ≠ 0 then (do
              let op ← mkKTOp s.K s.T
              pure (⟨op :: s.POp_List, 0, 0⟩ : ParseState)) else pure s
          pure { s with T := s.T + (d : Int) } : Py ParseState) = .ok s' ∧ ParseInv s' ∧
        (∀ (W : Type) [Monoid W] (I : Interp W), stateWord I s' = I.D ^ d * stateWord I s) ∧
        stateExpo s' = d + stateExpo s := by
    intro d
    by_cases hK : s.K ≠ 0
    · rw [if_pos hK]
      unfold mkKTOp
      rw [require_nonnegint_ok hT]
      refine ⟨_, rfl, ⟨by simp, ?_⟩, ?_, ?_⟩
      · intro op hop
        simp only [List.mem_cons] at hop
        rcases hop with rfl | hop
        · exact hT
        · exact h.valid op hop
      · intro W _ I
        simp [stateWord, opWord, monomial_zero_left]
      · simp [stateExpo, opExpo]
    · rw [if_neg hK]
      have hK0 : s.K = 0 := by omega
      refine ⟨_, rfl, ⟨by simp; omega, h.valid⟩, ?_, ?_⟩
      · intro W _ I
        have : (s.T + (d : Int)).toNat = d + s.T.toNat := by omega
        simp [stateWord, hK0, monomial_zero_left, this, pow_add, mul_assoc]
      · simp [stateExpo]; omega
  have b_case : ∀ (k : Int), ∃ s', (pure { s with K := s.K + k } : Py ParseState) = .ok s' ∧
      ParseInv s' ∧ (∀ (W : Type) [Monoid W] (I : Interp W),
        stateWord I s' = ↑(I.b ^ k) * stateWord I s) ∧ stateExpo s' = -k + stateExpo s := by
    intro k
    refine ⟨_, rfl, ⟨hT, h.valid⟩, ?_, ?_⟩
    · intro W _ I
      simp only [stateWord, monomial]
      rw [add_comm, zpow_add, Units.val_mul]
      simp [mul_assoc]
    · simp [stateExpo]; omega
  cases op with
  | Sm =>
    obtain ⟨s', e1, e2, e3, e4⟩ := S_case (-1) (by simp)
    exact ⟨s', e1, e2, fun W _ I => by rw [e3]; simp [symWord, opWord], by simp [e4, symExpo]⟩
  | S0 =>
    obtain ⟨s', e1, e2, e3, e4⟩ := S_case 0 (by simp)
    exact ⟨s', e1, e2, fun W _ I => by rw [e3]; simp [symWord, opWord], by simp [e4, symExpo]⟩
  | Sp =>
    obtain ⟨s', e1, e2, e3, e4⟩ := S_case 1 (by simp)
    exact ⟨s', e1, e2, fun W _ I => by rw [e3]; simp [symWord, opWord], by simp [e4, symExpo]⟩
  | Db =>
    obtain ⟨s', e1, e2, e3, e4⟩ := D_case 1
    exact ⟨s', e1, e2, fun W _ I => by rw [e3]; simp [symWord], by simp [e4, symExpo]⟩
  | D2b =>
    obtain ⟨s', e1, e2, e3, e4⟩ := D_case 2
    exact ⟨s', e1, e2, fun W _ I => by rw [e3]; simp [symWord, pow_two], by simp [e4, symExpo]⟩
  | bDb =>
    simp only [parseStep]
    by_cases hK : s.K ≠ 0
    · rw [if_pos hK]
      unfold mkKTOp
      rw [require_nonnegint_ok hT]
      refine ⟨_, rfl, ⟨by simp, ?_⟩, ?_, ?_⟩
      · intro op hop
        simp only [List.mem_cons] at hop
        rcases hop with rfl | hop
        · exact hT
        · exact h.valid op hop
      · intro W _ I
        simp [stateWord, opWord, monomial, symWord, mul_assoc]
      · simp [stateExpo, opExpo, symExpo]
    · rw [if_neg hK]
      have hK0 : s.K = 0 := by omega
      refine ⟨_, rfl, ⟨by simp; omega, h.valid⟩, ?_, ?_⟩
      · intro W _ I
        have : (s.T + 1).toNat = 1 + s.T.toNat := by omega
        simp [stateWord, hK0, monomial, symWord, this, pow_add, mul_assoc]
      · simp [stateExpo, symExpo, hK0]
  | b =>
    obtain ⟨s', e1, e2, e3, e4⟩ := b_case 1
    exact ⟨s', e1, e2, fun W _ I => by rw [e3]; simp [symWord], by simp [e4, symExpo]⟩
  | b2 =>
    obtain ⟨s', e1, e2, e3, e4⟩ := b_case 2
    refine ⟨s', e1, e2, fun W _ I => ?_, by simp [e4, symExpo]⟩
    rw [e3]
    have : I.b ^ (2 : Int) = I.b * I.b := by
      rw [show (2 : Int) = ((2 : Nat) : Int) from rfl, zpow_natCast, pow_two]
    simp [symWord, this]
  | bm =>
    obtain ⟨s', e1, e2, e3, e4⟩ := b_case (-1)
    exact ⟨s', e1, e2, fun W _ I => by rw [e3]; simp [symWord], by simp [e4, symExpo]⟩
  | bm2 =>
    obtain ⟨s', e1, e2, e3, e4⟩ := b_case (-2)
    refine ⟨s', e1, e2, fun W _ I => ?_, by simp [e4, symExpo]⟩
    rw [e3]
    have : I.b ^ (-2 : Int) = I.b⁻¹ * I.b⁻¹ := by
      rw [zpow_neg, show (2 : Int) = ((2 : Nat) : Int) from rfl, zpow_natCast, pow_two, mul_inv_rev]
    simp [symWord, this]
  | other => exact absurd rfl hop

theorem foldl_parse (ops : List RadSym) (h : RadSym.other ∉ ops) :
    ∃ s, ops.reverse.foldlM parseStep ⟨[], 0, 0⟩ = .ok s ∧ ParseInv s ∧
      (∀ (W : Type) [Monoid W] (I : Interp W), stateWord I s = (ops.map (symWord I)).prod) ∧
      stateExpo s = (ops.map symExpo).sum := by
  induction ops with
  | nil =>
    refine ⟨_, rfl, ⟨le_rfl, by simp⟩, ?_, ?_⟩
    · intro W _ I; simp [stateWord, monomial_zero]
    · simp [stateExpo]
  | cons op ops ih =>
    simp only [List.mem_cons, not_or] at h
    obtain ⟨s, e1, e2, e3, e4⟩ := ih h.2
    obtain ⟨s', f1, f2, f3, f4⟩ := parseStep_ok s op e2 (fun h' => h.1 h'.symm)
    refine ⟨s', ?_, f2, ?_, ?_⟩
    · rw [List.reverse_cons, List.foldlM_append, e1]
      simp only [py_bind_ok, List.foldlM_cons, List.foldlM_nil, f1]
      rfl
    · intro W _ I
      rw [f3, e3]; simp
    · rw [f4, e4]; simp

theorem parse_ok (ops : List RadSym) (h : RadSym.other ∉ ops) :
    ∃ l, Parse_RadialOp_List ops = .ok l ∧ (∀ op ∈ l, op.Valid) ∧
      (∀ (W : Type) [Monoid W] (I : Interp W),
        (l.map (opWord I)).prod = (ops.map (symWord I)).prod) ∧
      (l.map opExpo).sum = (ops.map symExpo).sum := by
  obtain ⟨s, e1, e2, e3, e4⟩ := foldl_parse ops h
  unfold Parse_RadialOp_List
  rw [e1]
  simp only [py_bind_ok]
  by_cases hc : s.K ≠ 0 ∨ s.T > 0
  · rw [if_pos hc]
    unfold mkKTOp
    rw [require_nonnegint_ok e2.T_nonneg]
    refine ⟨_, rfl, ?_, ?_, ?_⟩
    · intro op hop
      simp only [List.mem_cons] at hop
      rcases hop with rfl | hop
      · exact e2.T_nonneg
      · exact e2.valid op hop
    · intro W _ I
      rw [← e3]; simp [stateWord, opWord]
    · rw [← e4]; simp [stateExpo, opExpo]
  · rw [if_neg hc]
    have := e2.T_nonneg
    have hK : s.K = 0 := by omega
    have hT : s.T = 0 := by omega
    refine ⟨_, rfl, e2.valid, ?_, ?_⟩
    · intro W _ I
      rw [← e3]; simp [stateWord, hK, hT, monomial_zero]
    · rw [← e4]; simp [stateExpo, hK, hT]

theorem parse_err (ops : List RadSym) (h : RadSym.other ∈ ops) :
    Parse_RadialOp_List ops = .error .valueError := by
  have key : ops.reverse.foldlM parseStep ⟨[], 0, 0⟩ = (.error .valueError : Py ParseState) := by
    induction ops with
    | nil => simp at h
    | cons op ops ih =>
      rw [List.reverse_cons, List.foldlM_append]
      by_cases h' : RadSym.other ∈ ops
      · rw [ih h']; rfl
      · simp only [List.mem_cons, h', or_false] at h
        obtain ⟨s, e1, _⟩ := foldl_parse ops h'
        rw [e1, ← h]
        rfl
  unfold Parse_RadialOp_List
  rw [key]; rfl

end

end Acm
