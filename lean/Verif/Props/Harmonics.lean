import Verif.Model.Harmonics
import Verif.Spec.Harmonics
import Verif.Lemmas.Harmonics
import Verif.Props.CGSO3
import Mathlib.Analysis.SpecialFunctions.Integrals.Basic
import Mathlib.Tactic.FieldSimp
import Mathlib.Tactic.FinCases

/-!
# The table of spherical harmonics (C83) and the conversion factors (C84)
-/

namespace Acm.Props

open Acm Acm.Spec

instance (v a L : ℕ) : Decidable (IsState v a L) := by unfold IsState; infer_instance

/-- C83.  The table has an entry for every state with seniority at most 6, and no other entry. -/
theorem C83_states (v a L : ℕ) :
    (∃ h : SpHarm, h.table = ((v : Int), (a : Int), (L : Int))) ↔ v ≤ 6 ∧ IsState v a L := by
  constructor
  · rintro ⟨h, e⟩
    have hv : (v : Int) = h.table.1 := by rw [e]
    have ha : (a : Int) = h.table.2.1 := by rw [e]
    have hL : (L : Int) = h.table.2.2 := by rw [e]
    have hv : v = h.table.1.toNat := by omega
    have ha : a = h.table.2.1.toNat := by omega
    have hL : L = h.table.2.2.toNat := by omega
    subst hv ha hL
    clear e
    cases h <;> exact by decide +kernel
  · rintro ⟨hv, h1, h2⟩
    have hL : L ≤ 12 := by
      by_contra hc
      have : branching v L = 0 := by
        unfold branching
        rw [Finset.card_eq_zero, Finset.filter_eq_empty_iff]
        rintro K - ⟨h3, -, -, h4, -⟩
        omega
      omega
    have ha : a ≤ 2 := by
      have : ∀ v ≤ 6, ∀ L ≤ 12, branching v L ≤ 2 := by decide +kernel
      have := this v hv L hL
      omega
    have key : ∀ v ∈ List.range 7, ∀ L ∈ List.range 13, ∀ a ∈ List.range 3, IsState v a L →
        (((v : Int), (a : Int), (L : Int)) : Int × Int × Int) ∈ SpHarm_Operators.map SpHarm.table := by decide +kernel
    obtain ⟨h, -, e⟩ := List.mem_map.1 (key v (by simp; omega) L (by simp; omega) a (by simp; omega) ⟨h1, h2⟩)
    exact ⟨h, e⟩

/-- C83.  Different symbols stand for different states. -/
theorem C83_injective (h k : SpHarm) (e : h.table = k.table) : h = k := by
  revert e; cases h <;> cases k <;> decide +kernel

/-- C83.  The last three characters of the name of a symbol are the digits of its labels. -/
theorem C83_names (h : SpHarm) : IsHarmonicName h.name h.table := by
  have hd : ∀ k : SpHarm, k.table.1.toNat < 16 ∧ k.table.2.1.toNat < 16 ∧ k.table.2.2.toNat < 16 ∧
      k.table = ((k.table.1.toNat : Int), (k.table.2.1.toNat : Int), (k.table.2.2.toNat : Int)) ∧
      k.name.toList = "SpHarm_".toList ++ [k.table.1.toNat, k.table.2.1.toNat, k.table.2.2.toNat].map
        fun n => (Nat.digitChar n).toUpper := by
    intro k; cases k <;> decide +kernel
  exact ⟨_, _, _, hd h⟩

/-- C83.  The tuple of the symbols lists every symbol once. -/
theorem C83_operators : SpHarm_Operators.Nodup ∧ (∀ h, h ∈ SpHarm_Operators) ∧
    Spherical_Operators.Nodup ∧ ∀ o : OpSym, o ∈ Spherical_Operators ↔
      (∃ h, o = .harm h) ∨ o = .sqLdim ∨ o = .sqLdiv := by
  have hm : ∀ h, h ∈ SpHarm_Operators := by intro h; cases h <;> decide +kernel
  refine ⟨by decide +kernel, hm, by decide +kernel, fun o => ?_⟩
  simp only [Spherical_Operators, List.mem_append, List.mem_map, List.mem_cons, List.not_mem_nil, or_false]
  constructor
  · rintro (⟨h, -, rfl⟩ | h)
    · exact .inl ⟨h, rfl⟩
    · exact .inr h
  · rintro (⟨h, rfl⟩ | h)
    · exact .inl ⟨h, hm h, rfl⟩
    · exact .inr h

example : (∃ h : SpHarm, h.table = (6, 2, 6)) ∧ ¬ ∃ h : SpHarm, h.table = (6, 2, 4) :=
  ⟨(C83_states 6 2 6).2 (by decide +kernel), fun h => absurd ((C83_states 6 2 4).1 h) (by decide +kernel)⟩


theorem convert_112 : Converts Convert_112 2 quadrupole := by
  have hk : Convert_112 ^ 2 = 16 * Real.pi ^ 2 / 15 := by
    unfold Convert_112 FourPi; rw [div_pow, Real.sq_sqrt (by norm_num)]; ring
  constructor
  · rw [normSq_cos3 2 _ (1 / Convert_112 ^ 2) 0 0 ?_]
    · rw [hk]; push_cast; field_simp; norm_num
    · intro g
      push_cast
      rw [sum_icc2]
      simp [quadrupole, div_pow]
      have := Real.sin_sq_add_cos_sq g
      rw [show Real.sin g ^ 2 = 1 - Real.cos g ^ 2 by linarith]; ring
  · unfold quadrupole Convert_112 FourPi; simp; positivity


theorem convert_310 : Converts Convert_310 0 (scalarFun fun g => Real.cos (3 * g)) := by
  have hk : Convert_310 ^ 2 = 16 * Real.pi ^ 2 / 9 := by
    unfold Convert_310 FourPi; ring
  constructor
  · rw [normSq_cos3 0 _ 0 (1 / Convert_310 ^ 2) 0 ?_]
    · rw [hk]; push_cast; field_simp; norm_num
    · intro g
      simp [scalarFun, div_pow]
      ring
  · unfold scalarFun Convert_310 FourPi; simp; positivity

theorem convert_610 : Converts Convert_610 0 (scalarFun fun g => 3 * Real.cos (3 * g) ^ 2 - 1) := by
  have hk : Convert_610 ^ 2 = 64 * Real.pi ^ 2 / 15 := by
    unfold Convert_610 FourPi; rw [div_pow, Real.sq_sqrt (by norm_num)]; ring
  constructor
  · rw [normSq_cos3 0 _ (1 / Convert_610 ^ 2) (-6 / Convert_610 ^ 2) (9 / Convert_610 ^ 2) ?_]
    · rw [hk]; push_cast; field_simp; norm_num
    · intro g
      simp [scalarFun, div_pow]
      ring
  · unfold scalarFun Convert_610 FourPi; norm_num; positivity

theorem sqrt_scale {x : ℝ} (k y : ℝ) (hk : 0 ≤ k) (h : x = k ^ 2 * y) : Real.sqrt x = k * Real.sqrt y := by
  rw [h, Real.sqrt_mul (by positivity), Real.sqrt_sq hk]

theorem sum_Icc_range (lo hi : ℕ) (f : ℕ → ℝ) :
    ∑ s ∈ Finset.Icc lo hi, f s = ∑ s ∈ Finset.range (hi + 1 - lo), f (lo + s) := by
  rw [← Finset.sum_Ico_eq_sum_range]; rfl

theorem cg222_m0 : CG_SO3 2 (-2) 2 (0) 2 (-2) = .ok (Real.sqrt (2 / 7)) := by
  rw [CG_SO3_ok (a := 2) (b := 2) (c := 2) (p := 0) (p' := 4) (q := 2) (q' := 2) (r := 0) (r' := 4)
    (by constructor <;> norm_num) (by norm_num)]
  congr 1
  unfold cgVal cgSum cgTerm
  rw [sum_Icc_range, sqrt_scale (1) (2 / 7) (by norm_num) (by norm_num [Nat.factorial])]
  norm_num [Finset.sum_range_succ, Nat.factorial]
  try ring

theorem cg222_mp : CG_SO3 2 (-2) 2 (2) 2 (0) = .ok (Real.sqrt (2 / 7)) := by
  rw [CG_SO3_ok (a := 2) (b := 2) (c := 2) (p := 0) (p' := 4) (q := 4) (q' := 0) (r := 2) (r' := 2)
    (by constructor <;> norm_num) (by norm_num)]
  congr 1
  unfold cgVal cgSum cgTerm
  rw [sum_Icc_range, sqrt_scale (1 / 12) (2 / 7) (by norm_num) (by norm_num [Nat.factorial])]
  norm_num [Finset.sum_range_succ, Nat.factorial]
  try ring

theorem cg222_0m : CG_SO3 2 (0) 2 (-2) 2 (-2) = .ok (Real.sqrt (2 / 7)) := by
  rw [CG_SO3_ok (a := 2) (b := 2) (c := 2) (p := 2) (p' := 2) (q := 0) (q' := 4) (r := 0) (r' := 4)
    (by constructor <;> norm_num) (by norm_num)]
  congr 1
  unfold cgVal cgSum cgTerm
  rw [sum_Icc_range, sqrt_scale (1) (2 / 7) (by norm_num) (by norm_num [Nat.factorial])]
  norm_num [Finset.sum_range_succ, Nat.factorial]
  try ring

theorem cg222_00 : CG_SO3 2 (0) 2 (0) 2 (0) = .ok (-Real.sqrt (2 / 7)) := by
  rw [CG_SO3_ok (a := 2) (b := 2) (c := 2) (p := 2) (p' := 2) (q := 2) (q' := 2) (r := 2) (r' := 2)
    (by constructor <;> norm_num) (by norm_num)]
  congr 1
  unfold cgVal cgSum cgTerm
  rw [sum_Icc_range, sqrt_scale (1 / 12) (2 / 7) (by norm_num) (by norm_num [Nat.factorial])]
  norm_num [Finset.sum_range_succ, Nat.factorial]
  try ring

theorem cg222_0p : CG_SO3 2 (0) 2 (2) 2 (2) = .ok (Real.sqrt (2 / 7)) := by
  rw [CG_SO3_ok (a := 2) (b := 2) (c := 2) (p := 2) (p' := 2) (q := 4) (q' := 0) (r := 4) (r' := 0)
    (by constructor <;> norm_num) (by norm_num)]
  congr 1
  unfold cgVal cgSum cgTerm
  rw [sum_Icc_range, sqrt_scale (1 / 24) (2 / 7) (by norm_num) (by norm_num [Nat.factorial])]
  norm_num [Finset.sum_range_succ, Nat.factorial]
  try ring

theorem cg222_pm : CG_SO3 2 (2) 2 (-2) 2 (0) = .ok (Real.sqrt (2 / 7)) := by
  rw [CG_SO3_ok (a := 2) (b := 2) (c := 2) (p := 4) (p' := 0) (q := 0) (q' := 4) (r := 2) (r' := 2)
    (by constructor <;> norm_num) (by norm_num)]
  congr 1
  unfold cgVal cgSum cgTerm
  rw [sum_Icc_range, sqrt_scale (1 / 12) (2 / 7) (by norm_num) (by norm_num [Nat.factorial])]
  norm_num [Finset.sum_range_succ, Nat.factorial]
  try ring

theorem cg222_p0 : CG_SO3 2 (2) 2 (0) 2 (2) = .ok (Real.sqrt (2 / 7)) := by
  rw [CG_SO3_ok (a := 2) (b := 2) (c := 2) (p := 4) (p' := 0) (q := 2) (q' := 2) (r := 4) (r' := 0)
    (by constructor <;> norm_num) (by norm_num)]
  congr 1
  unfold cgVal cgSum cgTerm
  rw [sum_Icc_range, sqrt_scale (1 / 24) (2 / 7) (by norm_num) (by norm_num [Nat.factorial])]
  norm_num [Finset.sum_range_succ, Nat.factorial]
  try ring

theorem convert_212 (c : ℤ → ℤ → ℝ) (hc : ∀ m1 m2 : ℤ, CG_SO3 2 m1 2 m2 2 (m1 + m2 : ℤ) = .ok (c m1 m2)) :
    Converts Convert_212 2 (couple c 2 quadrupole quadrupole) := by
  have v : ∀ (m1 m2 m3 : ℤ) (x : ℝ), m1 + m2 = m3 → CG_SO3 2 m1 2 m2 2 m3 = .ok x → c m1 m2 = x := by
    intro m1 m2 m3 x h1 h2
    have := hc m1 m2
    rw [h1, h2] at this
    injection this with h; exact h.symm
  have c1 := v (-2) 0 (-2) _ (by norm_num) (by exact_mod_cast cg222_m0)
  have c2 := v (-2) 2 0 _ (by norm_num) (by exact_mod_cast cg222_mp)
  have c3 := v 0 (-2) (-2) _ (by norm_num) (by exact_mod_cast cg222_0m)
  have c4 := v 0 0 0 _ (by norm_num) (by exact_mod_cast cg222_00)
  have c5 := v 0 2 2 _ (by norm_num) (by exact_mod_cast cg222_0p)
  have c6 := v 2 (-2) 0 _ (by norm_num) (by exact_mod_cast cg222_pm)
  have c7 := v 2 0 2 _ (by norm_num) (by exact_mod_cast cg222_p0)
  have hk : Convert_212 ^ 2 = 16 * Real.pi ^ 2 * (2 / 105) := by
    unfold Convert_212 FourPi; rw [mul_pow, Real.sq_sqrt (by norm_num)]; ring
  have s7 : Real.sqrt (2 / 7) ^ 2 = 2 / 7 := Real.sq_sqrt (by norm_num)
  have s2 : Real.sqrt 2 ^ 2 = 2 := Real.sq_sqrt (by norm_num)
  have f0 : ∀ g, couple c 2 quadrupole quadrupole 0 g = Real.sqrt (2 / 7) * (Real.sin g ^ 2 - Real.cos g ^ 2) := by
    intro g
    unfold couple
    push_cast
    rw [sum_icc2]
    simp [quadrupole, c2, c4, c6]
    field_simp
    rw [s2]; ring
  have f2 : ∀ g, couple c 2 quadrupole quadrupole 2 g = Real.sqrt (2 / 7) * (Real.sqrt 2 * (Real.sin g * Real.cos g)) := by
    intro g
    unfold couple
    push_cast
    rw [sum_icc2]
    simp [quadrupole, c5, c7]
    field_simp
    rw [s2]; ring
  have f2' : ∀ g, couple c 2 quadrupole quadrupole (-2) g = Real.sqrt (2 / 7) * (Real.sqrt 2 * (Real.sin g * Real.cos g)) := by
    intro g
    unfold couple
    push_cast
    rw [sum_icc2]
    simp [quadrupole, c1, c3]
    field_simp
    rw [s2]; ring
  have f1 : ∀ g, couple c 2 quadrupole quadrupole 1 g = 0 := by
    intro g
    unfold couple
    push_cast
    rw [sum_icc2]
    simp [quadrupole]
  have f1' : ∀ g, couple c 2 quadrupole quadrupole (-1) g = 0 := by
    intro g
    unfold couple
    push_cast
    rw [sum_icc2]
    simp [quadrupole]
  constructor
  · rw [normSq_cos3 2 _ (2 / 7 / Convert_212 ^ 2) 0 0 ?_]
    · rw [hk]; push_cast; field_simp; norm_num
    · intro g
      push_cast
      rw [sum_icc2]
      have h := Real.sin_sq_add_cos_sq g
      generalize Real.sqrt (2 / 7) = z at *
      generalize Real.sqrt 2 = w at *
      simp only [f0, f1, f1', f2, f2']
      have e : z ^ 2 * (2 * (w ^ 2 * (Real.sin g ^ 2 * Real.cos g ^ 2)) + (Real.sin g ^ 2 - Real.cos g ^ 2) ^ 2)
          = 2 / 7 := by
        rw [s7, s2, show 2 * (2 * (Real.sin g ^ 2 * Real.cos g ^ 2)) + (Real.sin g ^ 2 - Real.cos g ^ 2) ^ 2 =
          (Real.sin g ^ 2 + Real.cos g ^ 2) ^ 2 by ring, h]; ring
      rw [← e]; ring
  · rw [f0]
    unfold Convert_212 FourPi
    have : Real.sqrt (2 / 7) * (Real.sin 0 ^ 2 - Real.cos 0 ^ 2) / (-(4 * Real.pi) * Real.sqrt (2 / 105)) =
        Real.sqrt (2 / 7) / (4 * Real.pi * Real.sqrt (2 / 105)) := by
      rw [Real.sin_zero, Real.cos_zero, neg_mul, div_neg]; ring
    rw [this]
    positivity

/-- `[Q x Q x Q]_6`. -/
noncomputable def cubic6 : Intrinsic :=
  couple (stretched 4 2) 4 (couple (stretched 2 2) 2 quadrupole quadrupole) quadrupole

theorem inner4 (g : ℝ) (C T : ℝ) (hq : ∀ K, quadrupole K g = if K = 0 then C else if K = 2 ∨ K = -2 then T else 0)
    (f : ℤ → ℝ) (hf : ∀ K, couple (stretched 2 2) 2 quadrupole quadrupole K g = f K) :
    f (-4) = T ^ 2 ∧ f 4 = T ^ 2 ∧
    f (-2) = 2 * Real.sqrt 6 * T * C / Real.sqrt 28 ∧
    f 2 = 2 * Real.sqrt 6 * T * C / Real.sqrt 28 ∧
    f 0 = (6 * C ^ 2 + 2 * T ^ 2) / Real.sqrt 70 ∧
    f 1 = 0 ∧ f 3 = 0 ∧ f (-1) = 0 ∧ f (-3) = 0 := by
  have h6 : Real.sqrt 6 * Real.sqrt 6 = 6 := Real.mul_self_sqrt (by norm_num)
  simp only [← hf]
  unfold couple
  push_cast
  simp only [sum_icc2, hq]
  norm_num [stretched, Nat.choose]
  simp only [show Nat.choose 4 (Int.toNat 2) = 6 by decide +kernel,
    show Nat.choose 4 (Int.toNat 4) = 1 by decide +kernel,
    show Nat.choose 8 (Int.toNat 2) = 28 by decide +kernel,
    show Nat.choose 8 (Int.toNat 4) = 70 by decide +kernel,
    show Nat.choose 8 (Int.toNat 6) = 28 by decide +kernel,
    show Nat.choose 8 (Int.toNat 8) = 1 by decide +kernel]
  norm_num
  refine ⟨?_, ?_, ?_, ?_⟩ <;> ring

theorem outer6 (g : ℝ) (C T : ℝ) (hq : ∀ K, quadrupole K g = if K = 0 then C else if K = 2 ∨ K = -2 then T else 0) :
    ∑ K ∈ Finset.Icc (-6 : ℤ) 6, cubic6 K g ^ 2 =
      (6 * (6 * C ^ 3 + 6 * T ^ 2 * C) ^ 2 / 924 + 2 * ((18 * T * C ^ 2 + 3 * T ^ 3) ^ 2 / 495) +
        2 * (9 * 6 * T ^ 4 * C ^ 2 / 66) + 2 * T ^ 6) := by
  obtain ⟨a1, a2, a3, a4, a5, a6, a7, a8, a9⟩ := inner4 g C T hq _ fun K => rfl
  have h6 : Real.sqrt 6 ^ 2 = 6 := Real.sq_sqrt (by norm_num)
  unfold cubic6
  rw [sum_icc6]
  generalize hf : couple (stretched 2 2) 2 quadrupole quadrupole = f at *
  unfold couple
  push_cast
  simp only [sum_icc4, hq, a1, a2, a3, a4, a5, a6, a7, a8, a9]
  norm_num [stretched, Nat.choose]
  simp only [show Nat.choose 4 (Int.toNat 2) = 6 by decide +kernel,
    show Nat.choose 4 (Int.toNat 4) = 1 by decide +kernel,
    show Nat.choose 8 (Int.toNat 0) = 1 by decide +kernel,
    show Nat.choose 8 (Int.toNat 2) = 28 by decide +kernel,
    show Nat.choose 8 (Int.toNat 4) = 70 by decide +kernel,
    show Nat.choose 8 (Int.toNat 6) = 28 by decide +kernel,
    show Nat.choose 8 (Int.toNat 8) = 1 by decide +kernel,
    show Nat.choose 12 (Int.toNat 0) = 1 by decide +kernel,
    show Nat.choose 12 (Int.toNat 2) = 66 by decide +kernel,
    show Nat.choose 12 (Int.toNat 4) = 495 by decide +kernel,
    show Nat.choose 12 (Int.toNat 6) = 924 by decide +kernel,
    show Nat.choose 12 (Int.toNat 8) = 495 by decide +kernel,
    show Nat.choose 12 (Int.toNat 10) = 66 by decide +kernel,
    show Nat.choose 12 (Int.toNat 12) = 1 by decide +kernel]
  norm_num
  have n28 : Real.sqrt 28 ≠ 0 := by positivity
  have n70 : Real.sqrt 70 ≠ 0 := by positivity
  have s66 : Real.sqrt 66 ^ 2 = 66 := Real.sq_sqrt (by norm_num)
  have s495 : Real.sqrt 495 ^ 2 = 495 := Real.sq_sqrt (by norm_num)
  have s924 : Real.sqrt 924 ^ 2 = 924 := Real.sq_sqrt (by norm_num)
  have n66 : Real.sqrt 66 ≠ 0 := by positivity
  have n495 : Real.sqrt 495 ≠ 0 := by positivity
  have n924 : Real.sqrt 924 ≠ 0 := by positivity
  generalize Real.sqrt 28 = x28 at *
  generalize Real.sqrt 70 = x70 at *
  generalize Real.sqrt 66 = x66 at *
  generalize Real.sqrt 495 = x495 at *
  generalize Real.sqrt 924 = x924 at *
  generalize Real.sqrt 6 = x6 at *
  have e1 : x6 / x66 * (T ^ 2 * C) + x28 / x66 * (2 * x6 * T * C / x28 * T) = 3 * x6 * T ^ 2 * C / x66 := by
    field_simp; ring
  have e2 : x495⁻¹ * (T ^ 2 * T) + x28 * x6 / x495 * (2 * x6 * T * C / x28 * C) +
      x70 / x495 * ((6 * C ^ 2 + 2 * T ^ 2) / x70 * T) = (18 * T * C ^ 2 + 3 * T ^ 3) / x495 := by
    field_simp; rw [h6]; ring
  have e3 : x28 / x924 * (2 * x6 * T * C / x28 * T) + x70 * x6 / x924 * ((6 * C ^ 2 + 2 * T ^ 2) / x70 * C) +
      x28 / x924 * (2 * x6 * T * C / x28 * T) = x6 * (6 * C ^ 3 + 6 * T ^ 2 * C) / x924 := by
    field_simp; ring
  have e4 : x70 / x495 * ((6 * C ^ 2 + 2 * T ^ 2) / x70 * T) + x28 * x6 / x495 * (2 * x6 * T * C / x28 * C) +
      x495⁻¹ * (T ^ 2 * T) = (18 * T * C ^ 2 + 3 * T ^ 3) / x495 := by rw [← e2]; ring
  have e5 : x28 / x66 * (2 * x6 * T * C / x28 * T) + x6 / x66 * (T ^ 2 * C) = 3 * x6 * T ^ 2 * C / x66 := by
    rw [← e1]; ring
  rw [e1, e2, e3, e4, e5, div_pow, div_pow, div_pow, s66, s495, s924, mul_pow x6, h6,
    show (3 * x6 * T ^ 2 * C) ^ 2 = 9 * x6 ^ 2 * T ^ 4 * C ^ 2 by ring, h6]
  ring

theorem convert_316 : Converts Convert_316 6 cubic6 := by
  have hk : Convert_316 ^ 2 = 16 * Real.pi ^ 2 / 9 * (2 / 35) := by
    unfold Convert_316 FourPi; rw [mul_pow, Real.sq_sqrt (by norm_num)]; ring
  have s2 : Real.sqrt 2 ^ 2 = 2 := Real.sq_sqrt (by norm_num)
  constructor
  · rw [normSq_cos3 6 _ (14 / 55 / Convert_316 ^ 2) (-(8 / 385) / Convert_316 ^ 2) 0 ?_]
    · rw [hk]; push_cast; field_simp; norm_num
    · intro g
      have h := outer6 g (Real.cos g) (Real.sin g / Real.sqrt 2) fun K => rfl
      have hs : (Real.sin g / Real.sqrt 2) ^ 2 = (1 - Real.cos g ^ 2) / 2 := by
        rw [div_pow, s2, ← Real.sin_sq_add_cos_sq g]; ring
      simp only [div_pow, ← Finset.sum_div]
      push_cast
      rw [h, Real.cos_three_mul]
      generalize Real.sin g / Real.sqrt 2 = T at *
      rw [show (18 * T * Real.cos g ^ 2 + 3 * T ^ 3) ^ 2 = T ^ 2 * (18 * Real.cos g ^ 2 + 3 * T ^ 2) ^ 2 by ring,
        show T ^ 4 = (T ^ 2) ^ 2 by ring, show T ^ 6 = (T ^ 2) ^ 3 by ring, hs]
      ring
  · have : cubic6 0 0 = 6 * Real.sqrt 6 / Real.sqrt 924 := by
      have hq : ∀ K, quadrupole K 0 = if K = 0 then 1 else 0 := by
        intro K; simp [quadrupole]
      unfold cubic6 couple
      push_cast
      simp only [sum_icc4, sum_icc2, hq]
      norm_num [stretched]
      simp only [show Nat.choose 4 (Int.toNat 2) = 6 by decide +kernel,
        show Nat.choose 8 (Int.toNat 4) = 70 by decide +kernel, show Nat.choose 12 (Int.toNat 6) = 924 by decide +kernel]
      norm_num
      field_simp
    rw [this]
    unfold Convert_316 FourPi
    positivity

/-- C84.  The conversion factors are what they are documented to be (internal_operators.py lines 52-57): each turns the
harmonic of unit norm (with the positive sign on the axis gamma = 0) into the quadrupole operator, its couplings to
`L = 2` (with the coefficients that `CG_SO3` computes) and to `L = 6`, and cos(3 gamma).  (`Convert_610` is documented there
as giving 3 cos(3 gamma) + 1; it gives 3 cos(3 gamma)^2 - 1.) -/
theorem C84_convert (c : ℤ → ℤ → ℝ) (hc : ∀ m1 m2 : ℤ, CG_SO3 2 m1 2 m2 2 (m1 + m2 : ℤ) = .ok (c m1 m2)) :
    Converts Convert_112 2 quadrupole ∧ Converts Convert_212 2 (couple c 2 quadrupole quadrupole) ∧
    Converts Convert_310 0 (scalarFun fun g => Real.cos (3 * g)) ∧
    Converts Convert_316 6 (couple (stretched 4 2) 4 (couple (stretched 2 2) 2 quadrupole quadrupole) quadrupole) ∧
    Converts Convert_610 0 (scalarFun fun g => 3 * Real.cos (3 * g) ^ 2 - 1) :=
  ⟨convert_112, convert_212 c hc, convert_310, convert_316, convert_610⟩

/-- C84.  No other factor does. -/
theorem C84_unique (k k' : ℝ) (L : ℕ) (f : Intrinsic) (h : Converts k L f) (h' : Converts k' L f) : k = k' := by
  have hn : ∀ k : ℝ, normSq L (fun K g => f K g / k) = normSq L f / k ^ 2 := by
    intro k
    unfold normSq
    simp only [div_pow, ← Finset.sum_div]
    rw [mul_div_assoc (_ / _), ← intervalIntegral.integral_div]
    congr 2
    funext g
    ring
  obtain ⟨h1, h2⟩ := h
  obtain ⟨h1', h2'⟩ := h'
  rw [hn] at h1 h1'
  have k0 : k ≠ 0 := by rintro rfl; simp at h1
  have k0' : k' ≠ 0 := by rintro rfl; simp at h1'
  rw [div_eq_one_iff_eq (pow_ne_zero 2 k0)] at h1
  rw [div_eq_one_iff_eq (pow_ne_zero 2 k0')] at h1'
  rcases sq_eq_sq_iff_eq_or_eq_neg.1 (h1.symm.trans h1') with e | e
  · exact e
  · rw [e, div_neg] at h2
    linarith

/-- The hypothesis of `C84_convert` is met. -/
example : ∃ c : ℤ → ℤ → ℝ, ∀ m1 m2 : ℤ, CG_SO3 2 m1 2 m2 2 (m1 + m2 : ℤ) = .ok (c m1 m2) := by
  have hi : ∀ n : ℤ, HalfInt (n : ℚ) := fun n => ⟨2 * n, by push_cast; ring⟩
  have h2 : HalfInt 2 := ⟨4, by norm_num⟩
  choose c hc using fun m1 m2 : ℤ => C57_CG_SO3_total 2 m1 2 m2 2 (m1 + m2 : ℤ) h2 (hi m1) h2 (hi m2) h2 (hi _)
  exact ⟨c, fun m1 m2 => (hc m1 m2).1⟩

end Acm.Props
