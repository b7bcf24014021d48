import Verif.Tests.RadialValues
import Verif.Lemmas.Radial
import Verif.Lemmas.RadialId

/-!
# The model gives the values in the project's tests

`tests/test_radial_me.py`.
-/

namespace Acm.Tests

open Acm.Spec

theorem isClose_of {rel abs x e d : ℝ} (hr : 0 ≤ rel) (hd : d ≤ rel * |e|) (h1 : e - d ≤ x) (h2 : x ≤ e + d) : IsClose rel abs x e :=
  le_max_of_le_left (le_trans (abs_le.2 ⟨by linarith, by linarith⟩) (mul_le_mul_of_nonneg_left (le_max_right _ _) hr))

theorem isClose_val {rel abs x e d v : ℝ} (hv : x = v) (hr : 0 ≤ rel) (hd : d ≤ rel * |e|) (h1 : e - d ≤ v) (h2 : v ≤ e + d) :
    IsClose rel abs x e := hv ▸ isClose_of hr hd h1 h2

theorem tst {rel abs e d v w : ℝ} {x : Py ℝ} (h : x = .ok v) (hv : v = w) (hr : 0 ≤ rel) (hd : d ≤ rel * |e|) (h1 : e - d ≤ w)
    (h2 : w ≤ e + d) : ∃ x', x = .ok x' ∧ IsClose rel abs x' e := ⟨v, h, isClose_val hv hr hd h1 h2⟩

theorem tst_abs {rel abs e d v w : ℝ} {x : Py ℝ} (h : x = .ok v) (hv : v = w) (_ : 0 ≤ rel) (hd : d ≤ abs) (h1 : e - d ≤ w)
    (h2 : w ≤ e + d) : ∃ x', x = .ok x' ∧ IsClose rel abs x' e :=
  ⟨v, h, hv ▸ le_max_of_le_right (abs_le.2 ⟨by linarith, by linarith⟩)⟩

theorem all_cons {α : Type} {P : α → Prop} {a : α} {l : List α} (h : P a) (hl : ∀ t ∈ l, P t) : ∀ t ∈ a :: l, P t :=
  List.forall_mem_cons.2 ⟨h, hl⟩

theorem all_nil {α : Type} {P : α → Prop} : ∀ t ∈ ([] : List α), P t := fun _ h => nomatch h

theorem root_bounds {q l u : ℝ} (hu : 0 ≤ u) (h1 : l ^ 2 ≤ q) (h2 : q ≤ u ^ 2) : l ≤ √q ∧ √q ≤ u :=
  ⟨Real.le_sqrt_of_sq_le h1, Real.sqrt_le_iff.2 ⟨hu, h2⟩⟩

theorem rise_gamma {lam : ℝ} (h : 0 < lam) (n : ℕ) : Real.Gamma (n + lam) = RisingFactorial lam n * Real.Gamma lam := by
  induction n with
  | zero => simp [RisingFactorial]
  | succ n ih =>
    rw [show ((n + 1 : ℕ) : ℝ) + lam = (n + lam) + 1 by push_cast; ring, Real.Gamma_add_one (by positivity), ih]
    unfold RisingFactorial
    rw [Finset.prod_range_succ]
    ring

theorem hN_div {lam : ℝ} (h : 0 < lam) (r i j : ℕ) {q : ℝ}
    (hq : RisingFactorial lam j * i.factorial / (RisingFactorial lam (i + r) * j.factorial) = q) : hN lam j / hN (lam + r) i = √q := by
  have hg := Real.Gamma_pos_of_pos h
  have hp : 0 < RisingFactorial lam (i + r) := Finset.prod_pos fun k _ => by positivity
  unfold hN
  rw [show (i : ℝ) + (lam + r) = ((i + r : ℕ) : ℝ) + lam by push_cast; ring, rise_gamma h, rise_gamma h, ← hq,
    ← Real.sqrt_div (by
      have : 0 ≤ RisingFactorial lam j := Finset.prod_nonneg fun k _ => by positivity
      positivity)]
  congr 1
  field_simp

theorem vbm2_val {lam : ℝ} (h : 0 < lam) (i j : ℕ) {q : ℝ}
    (hq : RisingFactorial lam (min i j) * (max i j).factorial / (RisingFactorial lam (max i j + 0) * (min i j).factorial) = q) :
    vbm2 lam i j = (-1) ^ (i + j) * √q / (lam - 1) := by
  have := hN_div h 0 _ _ hq
  rw [Nat.cast_zero, add_zero] at this
  unfold vbm2
  rw [this]

theorem vbm_pl_val {lam : ℝ} (h : 0 < lam) (i j : ℕ) (hij : j ≤ i) {q : ℝ}
    (hq : RisingFactorial lam j * i.factorial / (RisingFactorial lam (i + 1) * j.factorial) = q) :
    vbm_pl lam i j = (-1) ^ (i + j) * √q := by
  have := hN_div h 1 _ _ hq
  rw [Nat.cast_one] at this
  unfold vbm_pl
  rw [if_pos hij, this]

theorem vid_pl_val {lam : ℝ} (h : 0 < lam) (r i j : ℕ) {p q : ℝ} (hp : MF_Radial_id_pl lam i j r = p)
    (hq : RisingFactorial lam j * i.factorial / (RisingFactorial lam (i + 2 * r) * j.factorial) = q) :
    vid_pl lam r i j = p * √q := by
  have := hN_div h (2 * r) _ _ hq
  push_cast at this
  unfold vid_pl
  rw [hp, this]

theorem vid_pl_zero {lam : ℝ} {r i j : ℕ} (h : i + r < j) : vid_pl lam r i j = 0 := by
  unfold vid_pl
  rw [MF_zero h, zero_mul]

theorem pt_val {lam : ℝ} (h : 0 < lam) (h1 : lam ≠ 1) (i j : ℕ) {q : ℝ}
    (hq : RisingFactorial lam j * i.factorial / (RisingFactorial lam (i + 0) * j.factorial) = q) :
    ME_Radial_pt lam i j = .ok ((-1) ^ (i + j) * √q / (lam - 1)) := by
  have e := hN_div h 0 _ _ hq
  rw [Nat.cast_zero, add_zero] at e
  unfold ME_Radial_pt
  rw [if_neg h1]
  have := sqrt_poch h h j i
  simp only [this, py_bind_ok, e, altSign_eq]
  rfl

theorem poly_ok {lam p : ℝ} {mu nu r : ℕ} (h : nu ≤ mu + r) (hp : MF_Radial_id_pl lam mu nu r = p) : MF_Radial_id_poly lam mu nu r = .ok p := by
  unfold MF_Radial_id_poly pyAssert
  rw [decide_eq_true h, hp]
  rfl

/-- `ME_Radial_S0`. -/
theorem test_S0 : ∀ t ∈ tests_S0, ∃ x, ME_Radial_S0 2.5 t.1 t.2.1 = .ok x ∧ IsClose 1e-9 0 x t.2.2 := by
  refine all_cons ?_ ?_
  · refine tst (S0_ok _ 0 0) (w := (5 / 4)) (d := (1 / 800000000)) (by norm_num [vS0] <;> ring) (by norm_num) (by norm_num [abs_of_pos, abs_of_neg]) ?_ ?_
    · norm_num
    · norm_num
  refine all_cons ?_ ?_
  · refine tst (S0_ok _ 0 1) (w := 0) (d := 0) (by norm_num [vS0] <;> ring) (by norm_num) (by norm_num [abs_of_pos, abs_of_neg]) ?_ ?_
    · norm_num
    · norm_num
  refine all_cons ?_ ?_
  · refine tst (S0_ok _ 0 2) (w := 0) (d := 0) (by norm_num [vS0] <;> ring) (by norm_num) (by norm_num [abs_of_pos, abs_of_neg]) ?_ ?_
    · norm_num
    · norm_num
  refine all_cons ?_ ?_
  · refine tst (S0_ok _ 1 0) (w := 0) (d := 0) (by norm_num [vS0] <;> ring) (by norm_num) (by norm_num [abs_of_pos, abs_of_neg]) ?_ ?_
    · norm_num
    · norm_num
  refine all_cons ?_ ?_
  · refine tst (S0_ok _ 1 1) (w := (9 / 4)) (d := (9 / 4000000000)) (by norm_num [vS0] <;> ring) (by norm_num) (by norm_num [abs_of_pos, abs_of_neg]) ?_ ?_
    · norm_num
    · norm_num
  refine all_cons ?_ ?_
  · refine tst (S0_ok _ 1 2) (w := 0) (d := 0) (by norm_num [vS0] <;> ring) (by norm_num) (by norm_num [abs_of_pos, abs_of_neg]) ?_ ?_
    · norm_num
    · norm_num
  refine all_cons ?_ ?_
  · refine tst (S0_ok _ 2 0) (w := 0) (d := 0) (by norm_num [vS0] <;> ring) (by norm_num) (by norm_num [abs_of_pos, abs_of_neg]) ?_ ?_
    · norm_num
    · norm_num
  refine all_cons ?_ ?_
  · refine tst (S0_ok _ 2 1) (w := 0) (d := 0) (by norm_num [vS0] <;> ring) (by norm_num) (by norm_num [abs_of_pos, abs_of_neg]) ?_ ?_
    · norm_num
    · norm_num
  refine all_cons ?_ ?_
  · refine tst (S0_ok _ 2 2) (w := (13 / 4)) (d := (13 / 4000000000)) (by norm_num [vS0] <;> ring) (by norm_num) (by norm_num [abs_of_pos, abs_of_neg]) ?_ ?_
    · norm_num
    · norm_num
  exact all_nil

/-- `ME_Radial_Sp`. -/
theorem test_Sp : ∀ t ∈ tests_Sp, ∃ x, ME_Radial_Sp 2.5 t.1 t.2.1 = .ok x ∧ IsClose 1e-9 0 x t.2.2 := by
  refine all_cons ?_ ?_
  · refine tst (Sp_ok (by norm_num) 0 0) (w := 0) (d := 0) (by norm_num [vSp] <;> ring) (by norm_num) (by norm_num [abs_of_pos, abs_of_neg]) ?_ ?_
    · norm_num
    · norm_num
  refine all_cons ?_ ?_
  · refine tst (Sp_ok (by norm_num) 0 1) (w := 0) (d := 0) (by norm_num [vSp] <;> ring) (by norm_num) (by norm_num [abs_of_pos, abs_of_neg]) ?_ ?_
    · norm_num
    · norm_num
  refine all_cons ?_ ?_
  · refine tst (Sp_ok (by norm_num) 0 2) (w := 0) (d := 0) (by norm_num [vSp] <;> ring) (by norm_num) (by norm_num [abs_of_pos, abs_of_neg]) ?_ ?_
    · norm_num
    · norm_num
  refine all_cons ?_ ?_
  · refine tst (Sp_ok (by norm_num) 1 0) (w := 1 * √(5 / 2)) (d := (158113883 / 100000000000000000)) (by norm_num [vSp] <;> ring) (by norm_num) (by norm_num [abs_of_pos, abs_of_neg]) ?_ ?_
    · have h0 := root_bounds (q := (5 / 2)) (l := (15811388300841 / 10000000000000)) (u := (7905694150421 / 5000000000000)) (by norm_num) (by norm_num) (by norm_num); linarith
    · have h0 := root_bounds (q := (5 / 2)) (l := (15811388300841 / 10000000000000)) (u := (7905694150421 / 5000000000000)) (by norm_num) (by norm_num) (by norm_num); linarith
  refine all_cons ?_ ?_
  · refine tst (Sp_ok (by norm_num) 1 1) (w := 0) (d := 0) (by norm_num [vSp] <;> ring) (by norm_num) (by norm_num [abs_of_pos, abs_of_neg]) ?_ ?_
    · norm_num
    · norm_num
  refine all_cons ?_ ?_
  · refine tst (Sp_ok (by norm_num) 1 2) (w := 0) (d := 0) (by norm_num [vSp] <;> ring) (by norm_num) (by norm_num [abs_of_pos, abs_of_neg]) ?_ ?_
    · norm_num
    · norm_num
  refine all_cons ?_ ?_
  · refine tst (Sp_ok (by norm_num) 2 0) (w := 0) (d := 0) (by norm_num [vSp] <;> ring) (by norm_num) (by norm_num [abs_of_pos, abs_of_neg]) ?_ ?_
    · norm_num
    · norm_num
  refine all_cons ?_ ?_
  · refine tst (Sp_ok (by norm_num) 2 1) (w := 1 * √7) (d := (2645751311 / 1000000000000000000)) (by norm_num [vSp] <;> ring) (by norm_num) (by norm_num [abs_of_pos, abs_of_neg]) ?_ ?_
    · have h0 := root_bounds (q := 7) (l := (5291502622129 / 2000000000000)) (u := (13228756555323 / 5000000000000)) (by norm_num) (by norm_num) (by norm_num); linarith
    · have h0 := root_bounds (q := 7) (l := (5291502622129 / 2000000000000)) (u := (13228756555323 / 5000000000000)) (by norm_num) (by norm_num) (by norm_num); linarith
  refine all_cons ?_ ?_
  · refine tst (Sp_ok (by norm_num) 2 2) (w := 0) (d := 0) (by norm_num [vSp] <;> ring) (by norm_num) (by norm_num [abs_of_pos, abs_of_neg]) ?_ ?_
    · norm_num
    · norm_num
  exact all_nil

/-- `ME_Radial_Sm`. -/
theorem test_Sm : ∀ t ∈ tests_Sm, ∃ x, ME_Radial_Sm 2.5 t.1 t.2.1 = .ok x ∧ IsClose 1e-9 0 x t.2.2 := by
  refine all_cons ?_ ?_
  · refine tst (Sm_ok (by norm_num) 0 0) (w := 0) (d := 0) (by norm_num [vSm] <;> ring) (by norm_num) (by norm_num [abs_of_pos, abs_of_neg]) ?_ ?_
    · norm_num
    · norm_num
  refine all_cons ?_ ?_
  · refine tst (Sm_ok (by norm_num) 0 1) (w := 1 * √(5 / 2)) (d := (158113883 / 100000000000000000)) (by norm_num [vSm] <;> ring) (by norm_num) (by norm_num [abs_of_pos, abs_of_neg]) ?_ ?_
    · have h0 := root_bounds (q := (5 / 2)) (l := (15811388300841 / 10000000000000)) (u := (7905694150421 / 5000000000000)) (by norm_num) (by norm_num) (by norm_num); linarith
    · have h0 := root_bounds (q := (5 / 2)) (l := (15811388300841 / 10000000000000)) (u := (7905694150421 / 5000000000000)) (by norm_num) (by norm_num) (by norm_num); linarith
  refine all_cons ?_ ?_
  · refine tst (Sm_ok (by norm_num) 0 2) (w := 0) (d := 0) (by norm_num [vSm] <;> ring) (by norm_num) (by norm_num [abs_of_pos, abs_of_neg]) ?_ ?_
    · norm_num
    · norm_num
  refine all_cons ?_ ?_
  · refine tst (Sm_ok (by norm_num) 1 0) (w := 0) (d := 0) (by norm_num [vSm] <;> ring) (by norm_num) (by norm_num [abs_of_pos, abs_of_neg]) ?_ ?_
    · norm_num
    · norm_num
  refine all_cons ?_ ?_
  · refine tst (Sm_ok (by norm_num) 1 1) (w := 0) (d := 0) (by norm_num [vSm] <;> ring) (by norm_num) (by norm_num [abs_of_pos, abs_of_neg]) ?_ ?_
    · norm_num
    · norm_num
  refine all_cons ?_ ?_
  · refine tst (Sm_ok (by norm_num) 1 2) (w := 1 * √7) (d := (2645751311 / 1000000000000000000)) (by norm_num [vSm] <;> ring) (by norm_num) (by norm_num [abs_of_pos, abs_of_neg]) ?_ ?_
    · have h0 := root_bounds (q := 7) (l := (5291502622129 / 2000000000000)) (u := (13228756555323 / 5000000000000)) (by norm_num) (by norm_num) (by norm_num); linarith
    · have h0 := root_bounds (q := 7) (l := (5291502622129 / 2000000000000)) (u := (13228756555323 / 5000000000000)) (by norm_num) (by norm_num) (by norm_num); linarith
  refine all_cons ?_ ?_
  · refine tst (Sm_ok (by norm_num) 2 0) (w := 0) (d := 0) (by norm_num [vSm] <;> ring) (by norm_num) (by norm_num [abs_of_pos, abs_of_neg]) ?_ ?_
    · norm_num
    · norm_num
  refine all_cons ?_ ?_
  · refine tst (Sm_ok (by norm_num) 2 1) (w := 0) (d := 0) (by norm_num [vSm] <;> ring) (by norm_num) (by norm_num [abs_of_pos, abs_of_neg]) ?_ ?_
    · norm_num
    · norm_num
  refine all_cons ?_ ?_
  · refine tst (Sm_ok (by norm_num) 2 2) (w := 0) (d := 0) (by norm_num [vSm] <;> ring) (by norm_num) (by norm_num [abs_of_pos, abs_of_neg]) ?_ ?_
    · norm_num
    · norm_num
  exact all_nil

/-- `ME_Radial_b2`. -/
theorem test_b2 : ∀ t ∈ tests_b2, ∃ x, ME_Radial_b2 2.5 t.1 t.2.1 = .ok x ∧ IsClose 1e-9 0 x t.2.2 := by
  refine all_cons ?_ ?_
  · refine tst (b2_ok (by norm_num) 0 0) (w := (5 / 2)) (d := (1 / 400000000)) (by norm_num [vSp, vSm, vS0] <;> ring) (by norm_num) (by norm_num [abs_of_pos, abs_of_neg]) ?_ ?_
    · norm_num
    · norm_num
  refine all_cons ?_ ?_
  · refine tst (b2_ok (by norm_num) 0 1) (w := 1 * √(5 / 2)) (d := (158113883 / 100000000000000000)) (by norm_num [vSp, vSm, vS0] <;> ring) (by norm_num) (by norm_num [abs_of_pos, abs_of_neg]) ?_ ?_
    · have h0 := root_bounds (q := (5 / 2)) (l := (15811388300841 / 10000000000000)) (u := (7905694150421 / 5000000000000)) (by norm_num) (by norm_num) (by norm_num); linarith
    · have h0 := root_bounds (q := (5 / 2)) (l := (15811388300841 / 10000000000000)) (u := (7905694150421 / 5000000000000)) (by norm_num) (by norm_num) (by norm_num); linarith
  refine all_cons ?_ ?_
  · refine tst (b2_ok (by norm_num) 0 2) (w := 0) (d := 0) (by norm_num [vSp, vSm, vS0] <;> ring) (by norm_num) (by norm_num [abs_of_pos, abs_of_neg]) ?_ ?_
    · norm_num
    · norm_num
  refine all_cons ?_ ?_
  · refine tst (b2_ok (by norm_num) 1 0) (w := 1 * √(5 / 2)) (d := (158113883 / 100000000000000000)) (by norm_num [vSp, vSm, vS0] <;> ring) (by norm_num) (by norm_num [abs_of_pos, abs_of_neg]) ?_ ?_
    · have h0 := root_bounds (q := (5 / 2)) (l := (15811388300841 / 10000000000000)) (u := (7905694150421 / 5000000000000)) (by norm_num) (by norm_num) (by norm_num); linarith
    · have h0 := root_bounds (q := (5 / 2)) (l := (15811388300841 / 10000000000000)) (u := (7905694150421 / 5000000000000)) (by norm_num) (by norm_num) (by norm_num); linarith
  refine all_cons ?_ ?_
  · refine tst (b2_ok (by norm_num) 1 1) (w := (9 / 2)) (d := (9 / 2000000000)) (by norm_num [vSp, vSm, vS0] <;> ring) (by norm_num) (by norm_num [abs_of_pos, abs_of_neg]) ?_ ?_
    · norm_num
    · norm_num
  refine all_cons ?_ ?_
  · refine tst (b2_ok (by norm_num) 1 2) (w := 1 * √7) (d := (2645751311 / 1000000000000000000)) (by norm_num [vSp, vSm, vS0] <;> ring) (by norm_num) (by norm_num [abs_of_pos, abs_of_neg]) ?_ ?_
    · have h0 := root_bounds (q := 7) (l := (5291502622129 / 2000000000000)) (u := (13228756555323 / 5000000000000)) (by norm_num) (by norm_num) (by norm_num); linarith
    · have h0 := root_bounds (q := 7) (l := (5291502622129 / 2000000000000)) (u := (13228756555323 / 5000000000000)) (by norm_num) (by norm_num) (by norm_num); linarith
  refine all_cons ?_ ?_
  · refine tst (b2_ok (by norm_num) 2 0) (w := 0) (d := 0) (by norm_num [vSp, vSm, vS0] <;> ring) (by norm_num) (by norm_num [abs_of_pos, abs_of_neg]) ?_ ?_
    · norm_num
    · norm_num
  refine all_cons ?_ ?_
  · refine tst (b2_ok (by norm_num) 2 1) (w := 1 * √7) (d := (2645751311 / 1000000000000000000)) (by norm_num [vSp, vSm, vS0] <;> ring) (by norm_num) (by norm_num [abs_of_pos, abs_of_neg]) ?_ ?_
    · have h0 := root_bounds (q := 7) (l := (5291502622129 / 2000000000000)) (u := (13228756555323 / 5000000000000)) (by norm_num) (by norm_num) (by norm_num); linarith
    · have h0 := root_bounds (q := 7) (l := (5291502622129 / 2000000000000)) (u := (13228756555323 / 5000000000000)) (by norm_num) (by norm_num) (by norm_num); linarith
  refine all_cons ?_ ?_
  · refine tst (b2_ok (by norm_num) 2 2) (w := (13 / 2)) (d := (13 / 2000000000)) (by norm_num [vSp, vSm, vS0] <;> ring) (by norm_num) (by norm_num [abs_of_pos, abs_of_neg]) ?_ ?_
    · norm_num
    · norm_num
  exact all_nil

/-- `ME_Radial_bm2`. -/
theorem test_bm2 : ∀ t ∈ tests_bm2, ∃ x, ME_Radial_bm2 2.5 t.1 t.2.1 = .ok x ∧ IsClose 1e-9 0 x t.2.2 := by
  refine all_cons ?_ ?_
  · refine tst (bm2_ok (by norm_num) (by norm_num) 0 0) (w := (2 / 3)) (d := (6666666667 / 10000000000000000000)) (by rw [vbm2_val (by norm_num) 0 0 (q := 1) (by norm_num [RisingFactorial, Finset.prod_range_succ, Nat.factorial])] <;> norm_num [] <;> ring) (by norm_num) (by norm_num [abs_of_pos, abs_of_neg]) ?_ ?_
    · norm_num
    · norm_num
  refine all_cons ?_ ?_
  · refine tst (bm2_ok (by norm_num) (by norm_num) 0 1) (w := (-2 / 3) * √(2 / 5)) (d := (4216370213 / 10000000000000000000)) (by rw [vbm2_val (by norm_num) 0 1 (q := (2 / 5)) (by norm_num [RisingFactorial, Finset.prod_range_succ, Nat.factorial])] <;> norm_num [] <;> ring) (by norm_num) (by norm_num [abs_of_pos, abs_of_neg]) ?_ ?_
    · have h0 := root_bounds (q := (2 / 5)) (l := (395284707521 / 625000000000)) (u := (6324555320337 / 10000000000000)) (by norm_num) (by norm_num) (by norm_num); linarith
    · have h0 := root_bounds (q := (2 / 5)) (l := (395284707521 / 625000000000)) (u := (6324555320337 / 10000000000000)) (by norm_num) (by norm_num) (by norm_num); linarith
  refine all_cons ?_ ?_
  · refine tst (bm2_ok (by norm_num) (by norm_num) 0 2) (w := (2 / 3) * √(8 / 35)) (d := (3187276291 / 10000000000000000000)) (by rw [vbm2_val (by norm_num) 0 2 (q := (8 / 35)) (by norm_num [RisingFactorial, Finset.prod_range_succ, Nat.factorial])] <;> norm_num [] <;> ring) (by norm_num) (by norm_num [abs_of_pos, abs_of_neg]) ?_ ?_
    · have h0 := root_bounds (q := (8 / 35)) (l := (4780914437337 / 10000000000000)) (u := (2390457218669 / 5000000000000)) (by norm_num) (by norm_num) (by norm_num); linarith
    · have h0 := root_bounds (q := (8 / 35)) (l := (4780914437337 / 10000000000000)) (u := (2390457218669 / 5000000000000)) (by norm_num) (by norm_num) (by norm_num); linarith
  refine all_cons ?_ ?_
  · refine tst (bm2_ok (by norm_num) (by norm_num) 1 0) (w := (-2 / 3) * √(2 / 5)) (d := (4216370213 / 10000000000000000000)) (by rw [vbm2_val (by norm_num) 1 0 (q := (2 / 5)) (by norm_num [RisingFactorial, Finset.prod_range_succ, Nat.factorial])] <;> norm_num [] <;> ring) (by norm_num) (by norm_num [abs_of_pos, abs_of_neg]) ?_ ?_
    · have h0 := root_bounds (q := (2 / 5)) (l := (395284707521 / 625000000000)) (u := (6324555320337 / 10000000000000)) (by norm_num) (by norm_num) (by norm_num); linarith
    · have h0 := root_bounds (q := (2 / 5)) (l := (395284707521 / 625000000000)) (u := (6324555320337 / 10000000000000)) (by norm_num) (by norm_num) (by norm_num); linarith
  refine all_cons ?_ ?_
  · refine tst (bm2_ok (by norm_num) (by norm_num) 1 1) (w := (2 / 3)) (d := (6666666667 / 10000000000000000000)) (by rw [vbm2_val (by norm_num) 1 1 (q := 1) (by norm_num [RisingFactorial, Finset.prod_range_succ, Nat.factorial])] <;> norm_num [] <;> ring) (by norm_num) (by norm_num [abs_of_pos, abs_of_neg]) ?_ ?_
    · norm_num
    · norm_num
  refine all_cons ?_ ?_
  · refine tst (bm2_ok (by norm_num) (by norm_num) 1 2) (w := (-2 / 3) * √(4 / 7)) (d := (2519763153 / 5000000000000000000)) (by rw [vbm2_val (by norm_num) 1 2 (q := (4 / 7)) (by norm_num [RisingFactorial, Finset.prod_range_succ, Nat.factorial])] <;> norm_num [] <;> ring) (by norm_num) (by norm_num [abs_of_pos, abs_of_neg]) ?_ ?_
    · have h0 := root_bounds (q := (4 / 7)) (l := (944911182523 / 1250000000000)) (u := (1511857892037 / 2000000000000)) (by norm_num) (by norm_num) (by norm_num); linarith
    · have h0 := root_bounds (q := (4 / 7)) (l := (944911182523 / 1250000000000)) (u := (1511857892037 / 2000000000000)) (by norm_num) (by norm_num) (by norm_num); linarith
  refine all_cons ?_ ?_
  · refine tst (bm2_ok (by norm_num) (by norm_num) 2 0) (w := (2 / 3) * √(8 / 35)) (d := (3187276291 / 10000000000000000000)) (by rw [vbm2_val (by norm_num) 2 0 (q := (8 / 35)) (by norm_num [RisingFactorial, Finset.prod_range_succ, Nat.factorial])] <;> norm_num [] <;> ring) (by norm_num) (by norm_num [abs_of_pos, abs_of_neg]) ?_ ?_
    · have h0 := root_bounds (q := (8 / 35)) (l := (4780914437337 / 10000000000000)) (u := (2390457218669 / 5000000000000)) (by norm_num) (by norm_num) (by norm_num); linarith
    · have h0 := root_bounds (q := (8 / 35)) (l := (4780914437337 / 10000000000000)) (u := (2390457218669 / 5000000000000)) (by norm_num) (by norm_num) (by norm_num); linarith
  refine all_cons ?_ ?_
  · refine tst (bm2_ok (by norm_num) (by norm_num) 2 1) (w := (-2 / 3) * √(4 / 7)) (d := (2519763153 / 5000000000000000000)) (by rw [vbm2_val (by norm_num) 2 1 (q := (4 / 7)) (by norm_num [RisingFactorial, Finset.prod_range_succ, Nat.factorial])] <;> norm_num [] <;> ring) (by norm_num) (by norm_num [abs_of_pos, abs_of_neg]) ?_ ?_
    · have h0 := root_bounds (q := (4 / 7)) (l := (944911182523 / 1250000000000)) (u := (1511857892037 / 2000000000000)) (by norm_num) (by norm_num) (by norm_num); linarith
    · have h0 := root_bounds (q := (4 / 7)) (l := (944911182523 / 1250000000000)) (u := (1511857892037 / 2000000000000)) (by norm_num) (by norm_num) (by norm_num); linarith
  refine all_cons ?_ ?_
  · refine tst (bm2_ok (by norm_num) (by norm_num) 2 2) (w := (2 / 3)) (d := (6666666667 / 10000000000000000000)) (by rw [vbm2_val (by norm_num) 2 2 (q := 1) (by norm_num [RisingFactorial, Finset.prod_range_succ, Nat.factorial])] <;> norm_num [] <;> ring) (by norm_num) (by norm_num [abs_of_pos, abs_of_neg]) ?_ ?_
    · norm_num
    · norm_num
  exact all_nil

/-- `ME_Radial_pt`. -/
theorem test_pt : ∀ t ∈ tests_pt, ∃ x, ME_Radial_pt 2.5 t.1 t.2.1 = .ok x ∧ IsClose 1e-9 0 x t.2.2 := by
  refine all_cons ?_ ?_
  · refine tst (pt_val (by norm_num) (by norm_num) 0 0 (q := 1) (by norm_num [RisingFactorial, Finset.prod_range_succ, Nat.factorial])) (w := (2 / 3)) (d := (6666666667 / 10000000000000000000)) (by norm_num [] <;> ring) (by norm_num) (by norm_num [abs_of_pos, abs_of_neg]) ?_ ?_
    · norm_num
    · norm_num
  refine all_cons ?_ ?_
  · refine tst (pt_val (by norm_num) (by norm_num) 0 1 (q := (5 / 2)) (by norm_num [RisingFactorial, Finset.prod_range_succ, Nat.factorial])) (w := (-2 / 3) * √(5 / 2)) (d := (1054092553 / 1000000000000000000)) (by norm_num [] <;> ring) (by norm_num) (by norm_num [abs_of_pos, abs_of_neg]) ?_ ?_
    · have h0 := root_bounds (q := (5 / 2)) (l := (15811388300841 / 10000000000000)) (u := (7905694150421 / 5000000000000)) (by norm_num) (by norm_num) (by norm_num); linarith
    · have h0 := root_bounds (q := (5 / 2)) (l := (15811388300841 / 10000000000000)) (u := (7905694150421 / 5000000000000)) (by norm_num) (by norm_num) (by norm_num); linarith
  refine all_cons ?_ ?_
  · refine tst (pt_val (by norm_num) (by norm_num) 0 2 (q := (35 / 8)) (by norm_num [RisingFactorial, Finset.prod_range_succ, Nat.factorial])) (w := (2 / 3) * √(35 / 8)) (d := (697216689 / 500000000000000000)) (by norm_num [] <;> ring) (by norm_num) (by norm_num [abs_of_pos, abs_of_neg]) ?_ ?_
    · have h0 := root_bounds (q := (35 / 8)) (l := (20916500663351 / 10000000000000)) (u := (2614562582919 / 1250000000000)) (by norm_num) (by norm_num) (by norm_num); linarith
    · have h0 := root_bounds (q := (35 / 8)) (l := (20916500663351 / 10000000000000)) (u := (2614562582919 / 1250000000000)) (by norm_num) (by norm_num) (by norm_num); linarith
  refine all_cons ?_ ?_
  · refine tst (pt_val (by norm_num) (by norm_num) 1 0 (q := (2 / 5)) (by norm_num [RisingFactorial, Finset.prod_range_succ, Nat.factorial])) (w := (-2 / 3) * √(2 / 5)) (d := (4216370213 / 10000000000000000000)) (by norm_num [] <;> ring) (by norm_num) (by norm_num [abs_of_pos, abs_of_neg]) ?_ ?_
    · have h0 := root_bounds (q := (2 / 5)) (l := (395284707521 / 625000000000)) (u := (6324555320337 / 10000000000000)) (by norm_num) (by norm_num) (by norm_num); linarith
    · have h0 := root_bounds (q := (2 / 5)) (l := (395284707521 / 625000000000)) (u := (6324555320337 / 10000000000000)) (by norm_num) (by norm_num) (by norm_num); linarith
  refine all_cons ?_ ?_
  · refine tst (pt_val (by norm_num) (by norm_num) 1 1 (q := 1) (by norm_num [RisingFactorial, Finset.prod_range_succ, Nat.factorial])) (w := (2 / 3)) (d := (6666666667 / 10000000000000000000)) (by norm_num [] <;> ring) (by norm_num) (by norm_num [abs_of_pos, abs_of_neg]) ?_ ?_
    · norm_num
    · norm_num
  refine all_cons ?_ ?_
  · refine tst (pt_val (by norm_num) (by norm_num) 1 2 (q := (7 / 4)) (by norm_num [RisingFactorial, Finset.prod_range_succ, Nat.factorial])) (w := (-2 / 3) * √(7 / 4)) (d := (55119819 / 62500000000000000)) (by norm_num [] <;> ring) (by norm_num) (by norm_num [abs_of_pos, abs_of_neg]) ?_ ?_
    · have h0 := root_bounds (q := (7 / 4)) (l := (6614378277661 / 5000000000000)) (u := (13228756555323 / 10000000000000)) (by norm_num) (by norm_num) (by norm_num); linarith
    · have h0 := root_bounds (q := (7 / 4)) (l := (6614378277661 / 5000000000000)) (u := (13228756555323 / 10000000000000)) (by norm_num) (by norm_num) (by norm_num); linarith
  refine all_cons ?_ ?_
  · refine tst (pt_val (by norm_num) (by norm_num) 2 0 (q := (8 / 35)) (by norm_num [RisingFactorial, Finset.prod_range_succ, Nat.factorial])) (w := (2 / 3) * √(8 / 35)) (d := (3187276291 / 10000000000000000000)) (by norm_num [] <;> ring) (by norm_num) (by norm_num [abs_of_pos, abs_of_neg]) ?_ ?_
    · have h0 := root_bounds (q := (8 / 35)) (l := (4780914437337 / 10000000000000)) (u := (2390457218669 / 5000000000000)) (by norm_num) (by norm_num) (by norm_num); linarith
    · have h0 := root_bounds (q := (8 / 35)) (l := (4780914437337 / 10000000000000)) (u := (2390457218669 / 5000000000000)) (by norm_num) (by norm_num) (by norm_num); linarith
  refine all_cons ?_ ?_
  · refine tst (pt_val (by norm_num) (by norm_num) 2 1 (q := (4 / 7)) (by norm_num [RisingFactorial, Finset.prod_range_succ, Nat.factorial])) (w := (-2 / 3) * √(4 / 7)) (d := (2519763153 / 5000000000000000000)) (by norm_num [] <;> ring) (by norm_num) (by norm_num [abs_of_pos, abs_of_neg]) ?_ ?_
    · have h0 := root_bounds (q := (4 / 7)) (l := (944911182523 / 1250000000000)) (u := (1511857892037 / 2000000000000)) (by norm_num) (by norm_num) (by norm_num); linarith
    · have h0 := root_bounds (q := (4 / 7)) (l := (944911182523 / 1250000000000)) (u := (1511857892037 / 2000000000000)) (by norm_num) (by norm_num) (by norm_num); linarith
  refine all_cons ?_ ?_
  · refine tst (pt_val (by norm_num) (by norm_num) 2 2 (q := 1) (by norm_num [RisingFactorial, Finset.prod_range_succ, Nat.factorial])) (w := (2 / 3)) (d := (6666666667 / 10000000000000000000)) (by norm_num [] <;> ring) (by norm_num) (by norm_num [abs_of_pos, abs_of_neg]) ?_ ?_
    · norm_num
    · norm_num
  exact all_nil

/-- `ME_Radial_D2b`. -/
theorem test_D2b : ∀ t ∈ tests_D2b, ∃ x, ME_Radial_D2b 2.5 t.1 t.2.1 = .ok x ∧ IsClose 1e-9 0 x t.2.2 := by
  refine all_cons ?_ ?_
  · refine tst (D2b_ok (by norm_num) (by norm_num) 0 0) (w := (-5 / 2) + (4 / 3)) (d := (1166666667 / 1000000000000000000)) (by beta_reduce; rw [vbm2_val (by norm_num) 0 0 (q := 1) (by norm_num [RisingFactorial, Finset.prod_range_succ, Nat.factorial])] <;> norm_num [vSp, vSm, vS0] <;> ring) (by norm_num) (by norm_num [abs_of_pos, abs_of_neg]) ?_ ?_
    · norm_num
    · norm_num
  refine all_cons ?_ ?_
  · refine tst (D2b_ok (by norm_num) (by norm_num) 0 1) (w := 1 * √(5 / 2) + (-4 / 3) * √(2 / 5)) (d := (3689323937 / 5000000000000000000)) (by beta_reduce; rw [vbm2_val (by norm_num) 0 1 (q := (2 / 5)) (by norm_num [RisingFactorial, Finset.prod_range_succ, Nat.factorial])] <;> norm_num [vSp, vSm, vS0] <;> ring) (by norm_num) (by norm_num [abs_of_pos, abs_of_neg]) ?_ ?_
    · have h0 := root_bounds (q := (2 / 5)) (l := (395284707521 / 625000000000)) (u := (6324555320337 / 10000000000000)) (by norm_num) (by norm_num) (by norm_num); have h1 := root_bounds (q := (5 / 2)) (l := (15811388300841 / 10000000000000)) (u := (7905694150421 / 5000000000000)) (by norm_num) (by norm_num) (by norm_num); linarith
    · have h0 := root_bounds (q := (2 / 5)) (l := (395284707521 / 625000000000)) (u := (6324555320337 / 10000000000000)) (by norm_num) (by norm_num) (by norm_num); have h1 := root_bounds (q := (5 / 2)) (l := (15811388300841 / 10000000000000)) (u := (7905694150421 / 5000000000000)) (by norm_num) (by norm_num) (by norm_num); linarith
  refine all_cons ?_ ?_
  · refine tst (D2b_ok (by norm_num) (by norm_num) 0 2) (w := (4 / 3) * √(8 / 35)) (d := (3187276291 / 5000000000000000000)) (by beta_reduce; rw [vbm2_val (by norm_num) 0 2 (q := (8 / 35)) (by norm_num [RisingFactorial, Finset.prod_range_succ, Nat.factorial])] <;> norm_num [vSp, vSm, vS0] <;> ring) (by norm_num) (by norm_num [abs_of_pos, abs_of_neg]) ?_ ?_
    · have h0 := root_bounds (q := (8 / 35)) (l := (4780914437337 / 10000000000000)) (u := (2390457218669 / 5000000000000)) (by norm_num) (by norm_num) (by norm_num); linarith
    · have h0 := root_bounds (q := (8 / 35)) (l := (4780914437337 / 10000000000000)) (u := (2390457218669 / 5000000000000)) (by norm_num) (by norm_num) (by norm_num); linarith
  refine all_cons ?_ ?_
  · refine tst (D2b_ok (by norm_num) (by norm_num) 1 0) (w := 1 * √(5 / 2) + (-4 / 3) * √(2 / 5)) (d := (3689323937 / 5000000000000000000)) (by beta_reduce; rw [vbm2_val (by norm_num) 1 0 (q := (2 / 5)) (by norm_num [RisingFactorial, Finset.prod_range_succ, Nat.factorial])] <;> norm_num [vSp, vSm, vS0] <;> ring) (by norm_num) (by norm_num [abs_of_pos, abs_of_neg]) ?_ ?_
    · have h0 := root_bounds (q := (2 / 5)) (l := (395284707521 / 625000000000)) (u := (6324555320337 / 10000000000000)) (by norm_num) (by norm_num) (by norm_num); have h1 := root_bounds (q := (5 / 2)) (l := (15811388300841 / 10000000000000)) (u := (7905694150421 / 5000000000000)) (by norm_num) (by norm_num) (by norm_num); linarith
    · have h0 := root_bounds (q := (2 / 5)) (l := (395284707521 / 625000000000)) (u := (6324555320337 / 10000000000000)) (by norm_num) (by norm_num) (by norm_num); have h1 := root_bounds (q := (5 / 2)) (l := (15811388300841 / 10000000000000)) (u := (7905694150421 / 5000000000000)) (by norm_num) (by norm_num) (by norm_num); linarith
  refine all_cons ?_ ?_
  · refine tst (D2b_ok (by norm_num) (by norm_num) 1 1) (w := (-9 / 2) + (4 / 3)) (d := (3166666667 / 1000000000000000000)) (by beta_reduce; rw [vbm2_val (by norm_num) 1 1 (q := 1) (by norm_num [RisingFactorial, Finset.prod_range_succ, Nat.factorial])] <;> norm_num [vSp, vSm, vS0] <;> ring) (by norm_num) (by norm_num [abs_of_pos, abs_of_neg]) ?_ ?_
    · norm_num
    · norm_num
  refine all_cons ?_ ?_
  · refine tst (D2b_ok (by norm_num) (by norm_num) 1 2) (w := 1 * √7 + (-4 / 3) * √(4 / 7)) (d := (32756921 / 20000000000000000)) (by beta_reduce; rw [vbm2_val (by norm_num) 1 2 (q := (4 / 7)) (by norm_num [RisingFactorial, Finset.prod_range_succ, Nat.factorial])] <;> norm_num [vSp, vSm, vS0] <;> ring) (by norm_num) (by norm_num [abs_of_pos, abs_of_neg]) ?_ ?_
    · have h0 := root_bounds (q := (4 / 7)) (l := (944911182523 / 1250000000000)) (u := (1511857892037 / 2000000000000)) (by norm_num) (by norm_num) (by norm_num); have h1 := root_bounds (q := 7) (l := (5291502622129 / 2000000000000)) (u := (13228756555323 / 5000000000000)) (by norm_num) (by norm_num) (by norm_num); linarith
    · have h0 := root_bounds (q := (4 / 7)) (l := (944911182523 / 1250000000000)) (u := (1511857892037 / 2000000000000)) (by norm_num) (by norm_num) (by norm_num); have h1 := root_bounds (q := 7) (l := (5291502622129 / 2000000000000)) (u := (13228756555323 / 5000000000000)) (by norm_num) (by norm_num) (by norm_num); linarith
  refine all_cons ?_ ?_
  · refine tst (D2b_ok (by norm_num) (by norm_num) 2 0) (w := (4 / 3) * √(8 / 35)) (d := (3187276291 / 5000000000000000000)) (by beta_reduce; rw [vbm2_val (by norm_num) 2 0 (q := (8 / 35)) (by norm_num [RisingFactorial, Finset.prod_range_succ, Nat.factorial])] <;> norm_num [vSp, vSm, vS0] <;> ring) (by norm_num) (by norm_num [abs_of_pos, abs_of_neg]) ?_ ?_
    · have h0 := root_bounds (q := (8 / 35)) (l := (4780914437337 / 10000000000000)) (u := (2390457218669 / 5000000000000)) (by norm_num) (by norm_num) (by norm_num); linarith
    · have h0 := root_bounds (q := (8 / 35)) (l := (4780914437337 / 10000000000000)) (u := (2390457218669 / 5000000000000)) (by norm_num) (by norm_num) (by norm_num); linarith
  refine all_cons ?_ ?_
  · refine tst (D2b_ok (by norm_num) (by norm_num) 2 1) (w := 1 * √7 + (-4 / 3) * √(4 / 7)) (d := (32756921 / 20000000000000000)) (by beta_reduce; rw [vbm2_val (by norm_num) 2 1 (q := (4 / 7)) (by norm_num [RisingFactorial, Finset.prod_range_succ, Nat.factorial])] <;> norm_num [vSp, vSm, vS0] <;> ring) (by norm_num) (by norm_num [abs_of_pos, abs_of_neg]) ?_ ?_
    · have h0 := root_bounds (q := (4 / 7)) (l := (944911182523 / 1250000000000)) (u := (1511857892037 / 2000000000000)) (by norm_num) (by norm_num) (by norm_num); have h1 := root_bounds (q := 7) (l := (5291502622129 / 2000000000000)) (u := (13228756555323 / 5000000000000)) (by norm_num) (by norm_num) (by norm_num); linarith
    · have h0 := root_bounds (q := (4 / 7)) (l := (944911182523 / 1250000000000)) (u := (1511857892037 / 2000000000000)) (by norm_num) (by norm_num) (by norm_num); have h1 := root_bounds (q := 7) (l := (5291502622129 / 2000000000000)) (u := (13228756555323 / 5000000000000)) (by norm_num) (by norm_num) (by norm_num); linarith
  refine all_cons ?_ ?_
  · refine tst (D2b_ok (by norm_num) (by norm_num) 2 2) (w := (-13 / 2) + (4 / 3)) (d := (5166666667 / 1000000000000000000)) (by beta_reduce; rw [vbm2_val (by norm_num) 2 2 (q := 1) (by norm_num [RisingFactorial, Finset.prod_range_succ, Nat.factorial])] <;> norm_num [vSp, vSm, vS0] <;> ring) (by norm_num) (by norm_num [abs_of_pos, abs_of_neg]) ?_ ?_
    · norm_num
    · norm_num
  exact all_nil

/-- `ME_Radial_bDb`. -/
theorem test_bDb : ∀ t ∈ tests_bDb, ∃ x, ME_Radial_bDb 2.5 t.1 t.2.1 = .ok x ∧ IsClose 1e-9 0 x t.2.2 := by
  refine all_cons ?_ ?_
  · refine tst (bDb_ok (by norm_num) 0 0) (w := (-1 / 2)) (d := (1 / 2000000000)) (by norm_num [vSp, vSm, opId] <;> ring) (by norm_num) (by norm_num [abs_of_pos, abs_of_neg]) ?_ ?_
    · norm_num
    · norm_num
  refine all_cons ?_ ?_
  · refine tst (bDb_ok (by norm_num) 0 1) (w := 1 * √(5 / 2)) (d := (158113883 / 100000000000000000)) (by norm_num [vSp, vSm, opId] <;> ring) (by norm_num) (by norm_num [abs_of_pos, abs_of_neg]) ?_ ?_
    · have h0 := root_bounds (q := (5 / 2)) (l := (15811388300841 / 10000000000000)) (u := (7905694150421 / 5000000000000)) (by norm_num) (by norm_num) (by norm_num); linarith
    · have h0 := root_bounds (q := (5 / 2)) (l := (15811388300841 / 10000000000000)) (u := (7905694150421 / 5000000000000)) (by norm_num) (by norm_num) (by norm_num); linarith
  refine all_cons ?_ ?_
  · refine tst (bDb_ok (by norm_num) 0 2) (w := 0) (d := 0) (by norm_num [vSp, vSm, opId] <;> ring) (by norm_num) (by norm_num [abs_of_pos, abs_of_neg]) ?_ ?_
    · norm_num
    · norm_num
  refine all_cons ?_ ?_
  · refine tst (bDb_ok (by norm_num) 1 0) (w := (-1) * √(5 / 2)) (d := (158113883 / 100000000000000000)) (by norm_num [vSp, vSm, opId] <;> ring) (by norm_num) (by norm_num [abs_of_pos, abs_of_neg]) ?_ ?_
    · have h0 := root_bounds (q := (5 / 2)) (l := (15811388300841 / 10000000000000)) (u := (7905694150421 / 5000000000000)) (by norm_num) (by norm_num) (by norm_num); linarith
    · have h0 := root_bounds (q := (5 / 2)) (l := (15811388300841 / 10000000000000)) (u := (7905694150421 / 5000000000000)) (by norm_num) (by norm_num) (by norm_num); linarith
  refine all_cons ?_ ?_
  · refine tst (bDb_ok (by norm_num) 1 1) (w := (-1 / 2)) (d := (1 / 2000000000)) (by norm_num [vSp, vSm, opId] <;> ring) (by norm_num) (by norm_num [abs_of_pos, abs_of_neg]) ?_ ?_
    · norm_num
    · norm_num
  refine all_cons ?_ ?_
  · refine tst (bDb_ok (by norm_num) 1 2) (w := 1 * √7) (d := (2645751311 / 1000000000000000000)) (by norm_num [vSp, vSm, opId] <;> ring) (by norm_num) (by norm_num [abs_of_pos, abs_of_neg]) ?_ ?_
    · have h0 := root_bounds (q := 7) (l := (5291502622129 / 2000000000000)) (u := (13228756555323 / 5000000000000)) (by norm_num) (by norm_num) (by norm_num); linarith
    · have h0 := root_bounds (q := 7) (l := (5291502622129 / 2000000000000)) (u := (13228756555323 / 5000000000000)) (by norm_num) (by norm_num) (by norm_num); linarith
  refine all_cons ?_ ?_
  · refine tst (bDb_ok (by norm_num) 2 0) (w := 0) (d := 0) (by norm_num [vSp, vSm, opId] <;> ring) (by norm_num) (by norm_num [abs_of_pos, abs_of_neg]) ?_ ?_
    · norm_num
    · norm_num
  refine all_cons ?_ ?_
  · refine tst (bDb_ok (by norm_num) 2 1) (w := (-1) * √7) (d := (2645751311 / 1000000000000000000)) (by norm_num [vSp, vSm, opId] <;> ring) (by norm_num) (by norm_num [abs_of_pos, abs_of_neg]) ?_ ?_
    · have h0 := root_bounds (q := 7) (l := (5291502622129 / 2000000000000)) (u := (13228756555323 / 5000000000000)) (by norm_num) (by norm_num) (by norm_num); linarith
    · have h0 := root_bounds (q := 7) (l := (5291502622129 / 2000000000000)) (u := (13228756555323 / 5000000000000)) (by norm_num) (by norm_num) (by norm_num); linarith
  refine all_cons ?_ ?_
  · refine tst (bDb_ok (by norm_num) 2 2) (w := (-1 / 2)) (d := (1 / 2000000000)) (by norm_num [vSp, vSm, opId] <;> ring) (by norm_num) (by norm_num [abs_of_pos, abs_of_neg]) ?_ ?_
    · norm_num
    · norm_num
  exact all_nil

/-- `ME_Radial_b_pl`. -/
theorem test_b_pl : ∀ t ∈ tests_b_pl, ∃ x, ME_Radial_b_pl 2.5 t.1 t.2.1 = .ok x ∧ IsClose 1e-9 0 x t.2.2 := by
  refine all_cons ?_ ?_
  · refine tst (b_pl_ok (by norm_num) 0 0) (w := 1 * √(5 / 2)) (d := (158113883 / 100000000000000000)) (by norm_num [vb_pl] <;> ring) (by norm_num) (by norm_num [abs_of_pos, abs_of_neg]) ?_ ?_
    · have h0 := root_bounds (q := (5 / 2)) (l := (15811388300841 / 10000000000000)) (u := (7905694150421 / 5000000000000)) (by norm_num) (by norm_num) (by norm_num); linarith
    · have h0 := root_bounds (q := (5 / 2)) (l := (15811388300841 / 10000000000000)) (u := (7905694150421 / 5000000000000)) (by norm_num) (by norm_num) (by norm_num); linarith
  refine all_cons ?_ ?_
  · refine tst (b_pl_ok (by norm_num) 0 1) (w := 1) (d := (1 / 1000000000)) (by norm_num [vb_pl] <;> ring) (by norm_num) (by norm_num [abs_of_pos, abs_of_neg]) ?_ ?_
    · norm_num
    · norm_num
  refine all_cons ?_ ?_
  · refine tst (b_pl_ok (by norm_num) 0 2) (w := 0) (d := 0) (by norm_num [vb_pl] <;> ring) (by norm_num) (by norm_num [abs_of_pos, abs_of_neg]) ?_ ?_
    · norm_num
    · norm_num
  refine all_cons ?_ ?_
  · refine tst (b_pl_ok (by norm_num) 1 0) (w := 0) (d := 0) (by norm_num [vb_pl] <;> ring) (by norm_num) (by norm_num [abs_of_pos, abs_of_neg]) ?_ ?_
    · norm_num
    · norm_num
  refine all_cons ?_ ?_
  · refine tst (b_pl_ok (by norm_num) 1 1) (w := 1 * √(7 / 2)) (d := (1870828693 / 1000000000000000000)) (by norm_num [vb_pl] <;> ring) (by norm_num) (by norm_num [abs_of_pos, abs_of_neg]) ?_ ?_
    · have h0 := root_bounds (q := (7 / 2)) (l := (18708286933869 / 10000000000000)) (u := (1870828693387 / 1000000000000)) (by norm_num) (by norm_num) (by norm_num); linarith
    · have h0 := root_bounds (q := (7 / 2)) (l := (18708286933869 / 10000000000000)) (u := (1870828693387 / 1000000000000)) (by norm_num) (by norm_num) (by norm_num); linarith
  refine all_cons ?_ ?_
  · refine tst (b_pl_ok (by norm_num) 1 2) (w := 1 * √2) (d := (707106781 / 500000000000000000)) (by norm_num [vb_pl] <;> ring) (by norm_num) (by norm_num [abs_of_pos, abs_of_neg]) ?_ ?_
    · have h0 := root_bounds (q := 2) (l := (1414213562373 / 1000000000000)) (u := (14142135623731 / 10000000000000)) (by norm_num) (by norm_num) (by norm_num); linarith
    · have h0 := root_bounds (q := 2) (l := (1414213562373 / 1000000000000)) (u := (14142135623731 / 10000000000000)) (by norm_num) (by norm_num) (by norm_num); linarith
  refine all_cons ?_ ?_
  · refine tst (b_pl_ok (by norm_num) 2 0) (w := 0) (d := 0) (by norm_num [vb_pl] <;> ring) (by norm_num) (by norm_num [abs_of_pos, abs_of_neg]) ?_ ?_
    · norm_num
    · norm_num
  refine all_cons ?_ ?_
  · refine tst (b_pl_ok (by norm_num) 2 1) (w := 0) (d := 0) (by norm_num [vb_pl] <;> ring) (by norm_num) (by norm_num [abs_of_pos, abs_of_neg]) ?_ ?_
    · norm_num
    · norm_num
  refine all_cons ?_ ?_
  · refine tst (b_pl_ok (by norm_num) 2 2) (w := 1 * √(9 / 2)) (d := (265165043 / 125000000000000000)) (by norm_num [vb_pl] <;> ring) (by norm_num) (by norm_num [abs_of_pos, abs_of_neg]) ?_ ?_
    · have h0 := root_bounds (q := (9 / 2)) (l := (5303300858899 / 2500000000000)) (u := (21213203435597 / 10000000000000)) (by norm_num) (by norm_num) (by norm_num); linarith
    · have h0 := root_bounds (q := (9 / 2)) (l := (5303300858899 / 2500000000000)) (u := (21213203435597 / 10000000000000)) (by norm_num) (by norm_num) (by norm_num); linarith
  exact all_nil

/-- `ME_Radial_bm_pl`. -/
theorem test_bm_pl : ∀ t ∈ tests_bm_pl, ∃ x, ME_Radial_bm_pl 2.5 t.1 t.2.1 = .ok x ∧ IsClose 1e-9 0 x t.2.2 := by
  refine all_cons ?_ ?_
  · refine tst (bm_pl_ok (by norm_num) 0 0) (w := 1 * √(2 / 5)) (d := (158113883 / 250000000000000000)) (by rw [vbm_pl_val (by norm_num) 0 0 (by norm_num) (q := (2 / 5)) (by norm_num [RisingFactorial, Finset.prod_range_succ, Nat.factorial])] <;> norm_num [] <;> ring) (by norm_num) (by norm_num [abs_of_pos, abs_of_neg]) ?_ ?_
    · have h0 := root_bounds (q := (2 / 5)) (l := (395284707521 / 625000000000)) (u := (6324555320337 / 10000000000000)) (by norm_num) (by norm_num) (by norm_num); linarith
    · have h0 := root_bounds (q := (2 / 5)) (l := (395284707521 / 625000000000)) (u := (6324555320337 / 10000000000000)) (by norm_num) (by norm_num) (by norm_num); linarith
  refine all_cons ?_ ?_
  · refine tst (bm_pl_ok (by norm_num) 0 1) (w := 0) (d := 0) (by norm_num [vbm_pl] <;> ring) (by norm_num) (by norm_num [abs_of_pos, abs_of_neg]) ?_ ?_
    · norm_num
    · norm_num
  refine all_cons ?_ ?_
  · refine tst (bm_pl_ok (by norm_num) 0 2) (w := 0) (d := 0) (by norm_num [vbm_pl] <;> ring) (by norm_num) (by norm_num [abs_of_pos, abs_of_neg]) ?_ ?_
    · norm_num
    · norm_num
  refine all_cons ?_ ?_
  · refine tst (bm_pl_ok (by norm_num) 1 0) (w := (-1) * √(4 / 35)) (d := (1690308509 / 5000000000000000000)) (by rw [vbm_pl_val (by norm_num) 1 0 (by norm_num) (q := (4 / 35)) (by norm_num [RisingFactorial, Finset.prod_range_succ, Nat.factorial])] <;> norm_num [] <;> ring) (by norm_num) (by norm_num [abs_of_pos, abs_of_neg]) ?_ ?_
    · have h0 := root_bounds (q := (4 / 35)) (l := (1690308509457 / 5000000000000)) (u := (676123403783 / 2000000000000)) (by norm_num) (by norm_num) (by norm_num); linarith
    · have h0 := root_bounds (q := (4 / 35)) (l := (1690308509457 / 5000000000000)) (u := (676123403783 / 2000000000000)) (by norm_num) (by norm_num) (by norm_num); linarith
  refine all_cons ?_ ?_
  · refine tst (bm_pl_ok (by norm_num) 1 1) (w := 1 * √(2 / 7)) (d := (5345224837 / 10000000000000000000)) (by rw [vbm_pl_val (by norm_num) 1 1 (by norm_num) (q := (2 / 7)) (by norm_num [RisingFactorial, Finset.prod_range_succ, Nat.factorial])] <;> norm_num [] <;> ring) (by norm_num) (by norm_num [abs_of_pos, abs_of_neg]) ?_ ?_
    · have h0 := root_bounds (q := (2 / 7)) (l := (668153104781 / 1250000000000)) (u := (5345224838249 / 10000000000000)) (by norm_num) (by norm_num) (by norm_num); linarith
    · have h0 := root_bounds (q := (2 / 7)) (l := (668153104781 / 1250000000000)) (u := (5345224838249 / 10000000000000)) (by norm_num) (by norm_num) (by norm_num); linarith
  refine all_cons ?_ ?_
  · refine tst (bm_pl_ok (by norm_num) 1 2) (w := 0) (d := 0) (by norm_num [vbm_pl] <;> ring) (by norm_num) (by norm_num [abs_of_pos, abs_of_neg]) ?_ ?_
    · norm_num
    · norm_num
  refine all_cons ?_ ?_
  · refine tst (bm_pl_ok (by norm_num) 2 0) (w := 1 * √(16 / 315)) (d := (2253744679 / 10000000000000000000)) (by rw [vbm_pl_val (by norm_num) 2 0 (by norm_num) (q := (16 / 315)) (by norm_num [RisingFactorial, Finset.prod_range_succ, Nat.factorial])] <;> norm_num [] <;> ring) (by norm_num) (by norm_num [abs_of_pos, abs_of_neg]) ?_ ?_
    · have h0 := root_bounds (q := (16 / 315)) (l := (563436169819 / 2500000000000)) (u := (2253744679277 / 10000000000000)) (by norm_num) (by norm_num) (by norm_num); linarith
    · have h0 := root_bounds (q := (16 / 315)) (l := (563436169819 / 2500000000000)) (u := (2253744679277 / 10000000000000)) (by norm_num) (by norm_num) (by norm_num); linarith
  refine all_cons ?_ ?_
  · refine tst (bm_pl_ok (by norm_num) 2 1) (w := (-1) * √(8 / 63)) (d := (1781741613 / 5000000000000000000)) (by rw [vbm_pl_val (by norm_num) 2 1 (by norm_num) (q := (8 / 63)) (by norm_num [RisingFactorial, Finset.prod_range_succ, Nat.factorial])] <;> norm_num [] <;> ring) (by norm_num) (by norm_num [abs_of_pos, abs_of_neg]) ?_ ?_
    · have h0 := root_bounds (q := (8 / 63)) (l := (1781741612749 / 5000000000000)) (u := (3563483225499 / 10000000000000)) (by norm_num) (by norm_num) (by norm_num); linarith
    · have h0 := root_bounds (q := (8 / 63)) (l := (1781741612749 / 5000000000000)) (u := (3563483225499 / 10000000000000)) (by norm_num) (by norm_num) (by norm_num); linarith
  refine all_cons ?_ ?_
  · refine tst (bm_pl_ok (by norm_num) 2 2) (w := 1 * √(2 / 9)) (d := (4714045209 / 10000000000000000000)) (by rw [vbm_pl_val (by norm_num) 2 2 (by norm_num) (q := (2 / 9)) (by norm_num [RisingFactorial, Finset.prod_range_succ, Nat.factorial])] <;> norm_num [] <;> ring) (by norm_num) (by norm_num [abs_of_pos, abs_of_neg]) ?_ ?_
    · have h0 := root_bounds (q := (2 / 9)) (l := (471404520791 / 1000000000000)) (u := (4714045207911 / 10000000000000)) (by norm_num) (by norm_num) (by norm_num); linarith
    · have h0 := root_bounds (q := (2 / 9)) (l := (471404520791 / 1000000000000)) (u := (4714045207911 / 10000000000000)) (by norm_num) (by norm_num) (by norm_num); linarith
  exact all_nil

/-- `ME_Radial_Db_pl`. -/
theorem test_Db_pl : ∀ t ∈ tests_Db_pl, ∃ x, ME_Radial_Db_pl 2.5 t.1 t.2.1 = .ok x ∧ IsClose 1e-9 0 x t.2.2 := by
  refine all_cons ?_ ?_
  · refine tst (Db_pl_ok (by norm_num) 0 0) (w := (-1) * √(5 / 2) + 2 * √(2 / 5)) (d := (158113883 / 500000000000000000)) (by rw [vDb_pl, vbm_pl_val (by norm_num) 0 0 (by norm_num) (q := (2 / 5)) (by norm_num [RisingFactorial, Finset.prod_range_succ, Nat.factorial])] <;> norm_num [] <;> ring) (by norm_num) (by norm_num [abs_of_pos, abs_of_neg]) ?_ ?_
    · have h0 := root_bounds (q := (2 / 5)) (l := (395284707521 / 625000000000)) (u := (6324555320337 / 10000000000000)) (by norm_num) (by norm_num) (by norm_num); have h1 := root_bounds (q := (5 / 2)) (l := (15811388300841 / 10000000000000)) (u := (7905694150421 / 5000000000000)) (by norm_num) (by norm_num) (by norm_num); linarith
    · have h0 := root_bounds (q := (2 / 5)) (l := (395284707521 / 625000000000)) (u := (6324555320337 / 10000000000000)) (by norm_num) (by norm_num) (by norm_num); have h1 := root_bounds (q := (5 / 2)) (l := (15811388300841 / 10000000000000)) (u := (7905694150421 / 5000000000000)) (by norm_num) (by norm_num) (by norm_num); linarith
  refine all_cons ?_ ?_
  · refine tst (Db_pl_ok (by norm_num) 0 1) (w := 1) (d := (1 / 1000000000)) (by rw [vDb_pl] <;> norm_num [vbm_pl] <;> ring) (by norm_num) (by norm_num [abs_of_pos, abs_of_neg]) ?_ ?_
    · norm_num
    · norm_num
  refine all_cons ?_ ?_
  · refine tst (Db_pl_ok (by norm_num) 0 2) (w := 0) (d := 0) (by rw [vDb_pl] <;> norm_num [vbm_pl] <;> ring) (by norm_num) (by norm_num [abs_of_pos, abs_of_neg]) ?_ ?_
    · norm_num
    · norm_num
  refine all_cons ?_ ?_
  · refine tst (Db_pl_ok (by norm_num) 1 0) (w := (-2) * √(4 / 35)) (d := (1690308509 / 2500000000000000000)) (by rw [vDb_pl, vbm_pl_val (by norm_num) 1 0 (by norm_num) (q := (4 / 35)) (by norm_num [RisingFactorial, Finset.prod_range_succ, Nat.factorial])] <;> norm_num [] <;> ring) (by norm_num) (by norm_num [abs_of_pos, abs_of_neg]) ?_ ?_
    · have h0 := root_bounds (q := (4 / 35)) (l := (1690308509457 / 5000000000000)) (u := (676123403783 / 2000000000000)) (by norm_num) (by norm_num) (by norm_num); linarith
    · have h0 := root_bounds (q := (4 / 35)) (l := (1690308509457 / 5000000000000)) (u := (676123403783 / 2000000000000)) (by norm_num) (by norm_num) (by norm_num); linarith
  refine all_cons ?_ ?_
  · refine tst (Db_pl_ok (by norm_num) 1 1) (w := (-1) * √(7 / 2) + 2 * √(2 / 7)) (d := (400891863 / 500000000000000000)) (by rw [vDb_pl, vbm_pl_val (by norm_num) 1 1 (by norm_num) (q := (2 / 7)) (by norm_num [RisingFactorial, Finset.prod_range_succ, Nat.factorial])] <;> norm_num [] <;> ring) (by norm_num) (by norm_num [abs_of_pos, abs_of_neg]) ?_ ?_
    · have h0 := root_bounds (q := (2 / 7)) (l := (668153104781 / 1250000000000)) (u := (5345224838249 / 10000000000000)) (by norm_num) (by norm_num) (by norm_num); have h1 := root_bounds (q := (7 / 2)) (l := (18708286933869 / 10000000000000)) (u := (1870828693387 / 1000000000000)) (by norm_num) (by norm_num) (by norm_num); linarith
    · have h0 := root_bounds (q := (2 / 7)) (l := (668153104781 / 1250000000000)) (u := (5345224838249 / 10000000000000)) (by norm_num) (by norm_num) (by norm_num); have h1 := root_bounds (q := (7 / 2)) (l := (18708286933869 / 10000000000000)) (u := (1870828693387 / 1000000000000)) (by norm_num) (by norm_num) (by norm_num); linarith
  refine all_cons ?_ ?_
  · refine tst (Db_pl_ok (by norm_num) 1 2) (w := 1 * √2) (d := (707106781 / 500000000000000000)) (by rw [vDb_pl] <;> norm_num [vbm_pl] <;> ring) (by norm_num) (by norm_num [abs_of_pos, abs_of_neg]) ?_ ?_
    · have h0 := root_bounds (q := 2) (l := (1414213562373 / 1000000000000)) (u := (14142135623731 / 10000000000000)) (by norm_num) (by norm_num) (by norm_num); linarith
    · have h0 := root_bounds (q := 2) (l := (1414213562373 / 1000000000000)) (u := (14142135623731 / 10000000000000)) (by norm_num) (by norm_num) (by norm_num); linarith
  refine all_cons ?_ ?_
  · refine tst (Db_pl_ok (by norm_num) 2 0) (w := 2 * √(16 / 315)) (d := (2253744679 / 5000000000000000000)) (by rw [vDb_pl, vbm_pl_val (by norm_num) 2 0 (by norm_num) (q := (16 / 315)) (by norm_num [RisingFactorial, Finset.prod_range_succ, Nat.factorial])] <;> norm_num [] <;> ring) (by norm_num) (by norm_num [abs_of_pos, abs_of_neg]) ?_ ?_
    · have h0 := root_bounds (q := (16 / 315)) (l := (563436169819 / 2500000000000)) (u := (2253744679277 / 10000000000000)) (by norm_num) (by norm_num) (by norm_num); linarith
    · have h0 := root_bounds (q := (16 / 315)) (l := (563436169819 / 2500000000000)) (u := (2253744679277 / 10000000000000)) (by norm_num) (by norm_num) (by norm_num); linarith
  refine all_cons ?_ ?_
  · refine tst (Db_pl_ok (by norm_num) 2 1) (w := (-2) * √(8 / 63)) (d := (1781741613 / 2500000000000000000)) (by rw [vDb_pl, vbm_pl_val (by norm_num) 2 1 (by norm_num) (q := (8 / 63)) (by norm_num [RisingFactorial, Finset.prod_range_succ, Nat.factorial])] <;> norm_num [] <;> ring) (by norm_num) (by norm_num [abs_of_pos, abs_of_neg]) ?_ ?_
    · have h0 := root_bounds (q := (8 / 63)) (l := (1781741612749 / 5000000000000)) (u := (3563483225499 / 10000000000000)) (by norm_num) (by norm_num) (by norm_num); linarith
    · have h0 := root_bounds (q := (8 / 63)) (l := (1781741612749 / 5000000000000)) (u := (3563483225499 / 10000000000000)) (by norm_num) (by norm_num) (by norm_num); linarith
  refine all_cons ?_ ?_
  · refine tst (Db_pl_ok (by norm_num) 2 2) (w := (-1) * √(9 / 2) + 2 * √(2 / 9)) (d := (589255651 / 500000000000000000)) (by rw [vDb_pl, vbm_pl_val (by norm_num) 2 2 (by norm_num) (q := (2 / 9)) (by norm_num [RisingFactorial, Finset.prod_range_succ, Nat.factorial])] <;> norm_num [] <;> ring) (by norm_num) (by norm_num [abs_of_pos, abs_of_neg]) ?_ ?_
    · have h0 := root_bounds (q := (2 / 9)) (l := (471404520791 / 1000000000000)) (u := (4714045207911 / 10000000000000)) (by norm_num) (by norm_num) (by norm_num); have h1 := root_bounds (q := (9 / 2)) (l := (5303300858899 / 2500000000000)) (u := (21213203435597 / 10000000000000)) (by norm_num) (by norm_num) (by norm_num); linarith
    · have h0 := root_bounds (q := (2 / 9)) (l := (471404520791 / 1000000000000)) (u := (4714045207911 / 10000000000000)) (by norm_num) (by norm_num) (by norm_num); have h1 := root_bounds (q := (9 / 2)) (l := (5303300858899 / 2500000000000)) (u := (21213203435597 / 10000000000000)) (by norm_num) (by norm_num) (by norm_num); linarith
  exact all_nil

/-- `ME_Radial_b_ml`. -/
theorem test_b_ml : ∀ t ∈ tests_b_ml, ∃ x, ME_Radial_b_ml 2.5 t.1 t.2.1 = .ok x ∧ IsClose 1e-9 0 x t.2.2 := by
  rw [show (2.5 : ℝ) = 1.5 + 1 by norm_num]
  refine all_cons ?_ ?_
  · refine tst (b_ml_ok (lam := 1.5) (by norm_num) 0 0) (w := 1 * √(3 / 2)) (d := (1224744871 / 1000000000000000000)) (by norm_num [vb_pl] <;> ring) (by norm_num) (by norm_num [abs_of_pos, abs_of_neg]) ?_ ?_
    · have h0 := root_bounds (q := (3 / 2)) (l := (2449489742783 / 2000000000000)) (u := (3061862178479 / 2500000000000)) (by norm_num) (by norm_num) (by norm_num); linarith
    · have h0 := root_bounds (q := (3 / 2)) (l := (2449489742783 / 2000000000000)) (u := (3061862178479 / 2500000000000)) (by norm_num) (by norm_num) (by norm_num); linarith
  refine all_cons ?_ ?_
  · refine tst (b_ml_ok (lam := 1.5) (by norm_num) 0 1) (w := 0) (d := 0) (by norm_num [vb_pl] <;> ring) (by norm_num) (by norm_num [abs_of_pos, abs_of_neg]) ?_ ?_
    · norm_num
    · norm_num
  refine all_cons ?_ ?_
  · refine tst (b_ml_ok (lam := 1.5) (by norm_num) 0 2) (w := 0) (d := 0) (by norm_num [vb_pl] <;> ring) (by norm_num) (by norm_num [abs_of_pos, abs_of_neg]) ?_ ?_
    · norm_num
    · norm_num
  refine all_cons ?_ ?_
  · refine tst (b_ml_ok (lam := 1.5) (by norm_num) 1 0) (w := 1) (d := (1 / 1000000000)) (by norm_num [vb_pl] <;> ring) (by norm_num) (by norm_num [abs_of_pos, abs_of_neg]) ?_ ?_
    · norm_num
    · norm_num
  refine all_cons ?_ ?_
  · refine tst (b_ml_ok (lam := 1.5) (by norm_num) 1 1) (w := 1 * √(5 / 2)) (d := (158113883 / 100000000000000000)) (by norm_num [vb_pl] <;> ring) (by norm_num) (by norm_num [abs_of_pos, abs_of_neg]) ?_ ?_
    · have h0 := root_bounds (q := (5 / 2)) (l := (15811388300841 / 10000000000000)) (u := (7905694150421 / 5000000000000)) (by norm_num) (by norm_num) (by norm_num); linarith
    · have h0 := root_bounds (q := (5 / 2)) (l := (15811388300841 / 10000000000000)) (u := (7905694150421 / 5000000000000)) (by norm_num) (by norm_num) (by norm_num); linarith
  refine all_cons ?_ ?_
  · refine tst (b_ml_ok (lam := 1.5) (by norm_num) 1 2) (w := 0) (d := 0) (by norm_num [vb_pl] <;> ring) (by norm_num) (by norm_num [abs_of_pos, abs_of_neg]) ?_ ?_
    · norm_num
    · norm_num
  refine all_cons ?_ ?_
  · refine tst (b_ml_ok (lam := 1.5) (by norm_num) 2 0) (w := 0) (d := 0) (by norm_num [vb_pl] <;> ring) (by norm_num) (by norm_num [abs_of_pos, abs_of_neg]) ?_ ?_
    · norm_num
    · norm_num
  refine all_cons ?_ ?_
  · refine tst (b_ml_ok (lam := 1.5) (by norm_num) 2 1) (w := 1 * √2) (d := (707106781 / 500000000000000000)) (by norm_num [vb_pl] <;> ring) (by norm_num) (by norm_num [abs_of_pos, abs_of_neg]) ?_ ?_
    · have h0 := root_bounds (q := 2) (l := (1414213562373 / 1000000000000)) (u := (14142135623731 / 10000000000000)) (by norm_num) (by norm_num) (by norm_num); linarith
    · have h0 := root_bounds (q := 2) (l := (1414213562373 / 1000000000000)) (u := (14142135623731 / 10000000000000)) (by norm_num) (by norm_num) (by norm_num); linarith
  refine all_cons ?_ ?_
  · refine tst (b_ml_ok (lam := 1.5) (by norm_num) 2 2) (w := 1 * √(7 / 2)) (d := (1870828693 / 1000000000000000000)) (by norm_num [vb_pl] <;> ring) (by norm_num) (by norm_num [abs_of_pos, abs_of_neg]) ?_ ?_
    · have h0 := root_bounds (q := (7 / 2)) (l := (18708286933869 / 10000000000000)) (u := (1870828693387 / 1000000000000)) (by norm_num) (by norm_num) (by norm_num); linarith
    · have h0 := root_bounds (q := (7 / 2)) (l := (18708286933869 / 10000000000000)) (u := (1870828693387 / 1000000000000)) (by norm_num) (by norm_num) (by norm_num); linarith
  exact all_nil

/-- `ME_Radial_bm_ml`. -/
theorem test_bm_ml : ∀ t ∈ tests_bm_ml, ∃ x, ME_Radial_bm_ml 2.5 t.1 t.2.1 = .ok x ∧ IsClose 1e-9 0 x t.2.2 := by
  rw [show (2.5 : ℝ) = 1.5 + 1 by norm_num]
  refine all_cons ?_ ?_
  · refine tst (bm_ml_ok (lam := 1.5) (by norm_num) 0 0) (w := 1 * √(2 / 3)) (d := (816496581 / 1000000000000000000)) (by beta_reduce; rw [vbm_pl_val (by norm_num) 0 0 (by norm_num) (q := (2 / 3)) (by norm_num [RisingFactorial, Finset.prod_range_succ, Nat.factorial])] <;> norm_num [] <;> ring) (by norm_num) (by norm_num [abs_of_pos, abs_of_neg]) ?_ ?_
    · have h0 := root_bounds (q := (2 / 3)) (l := (8164965809277 / 10000000000000)) (u := (4082482904639 / 5000000000000)) (by norm_num) (by norm_num) (by norm_num); linarith
    · have h0 := root_bounds (q := (2 / 3)) (l := (8164965809277 / 10000000000000)) (u := (4082482904639 / 5000000000000)) (by norm_num) (by norm_num) (by norm_num); linarith
  refine all_cons ?_ ?_
  · refine tst (bm_ml_ok (lam := 1.5) (by norm_num) 0 1) (w := (-1) * √(4 / 15)) (d := (1032795559 / 2000000000000000000)) (by beta_reduce; rw [vbm_pl_val (by norm_num) 1 0 (by norm_num) (q := (4 / 15)) (by norm_num [RisingFactorial, Finset.prod_range_succ, Nat.factorial])] <;> norm_num [] <;> ring) (by norm_num) (by norm_num [abs_of_pos, abs_of_neg]) ?_ ?_
    · have h0 := root_bounds (q := (4 / 15)) (l := (5163977794943 / 10000000000000)) (u := (40343576523 / 78125000000)) (by norm_num) (by norm_num) (by norm_num); linarith
    · have h0 := root_bounds (q := (4 / 15)) (l := (5163977794943 / 10000000000000)) (u := (40343576523 / 78125000000)) (by norm_num) (by norm_num) (by norm_num); linarith
  refine all_cons ?_ ?_
  · refine tst (bm_ml_ok (lam := 1.5) (by norm_num) 0 2) (w := 1 * √(16 / 105)) (d := (3903600291 / 10000000000000000000)) (by beta_reduce; rw [vbm_pl_val (by norm_num) 2 0 (by norm_num) (q := (16 / 105)) (by norm_num [RisingFactorial, Finset.prod_range_succ, Nat.factorial])] <;> norm_num [] <;> ring) (by norm_num) (by norm_num [abs_of_pos, abs_of_neg]) ?_ ?_
    · have h0 := root_bounds (q := (16 / 105)) (l := (1951800145897 / 5000000000000)) (u := (780720058359 / 2000000000000)) (by norm_num) (by norm_num) (by norm_num); linarith
    · have h0 := root_bounds (q := (16 / 105)) (l := (1951800145897 / 5000000000000)) (u := (780720058359 / 2000000000000)) (by norm_num) (by norm_num) (by norm_num); linarith
  refine all_cons ?_ ?_
  · refine tst (bm_ml_ok (lam := 1.5) (by norm_num) 1 0) (w := 0) (d := 0) (by norm_num [vbm_pl] <;> ring) (by norm_num) (by norm_num [abs_of_pos, abs_of_neg]) ?_ ?_
    · norm_num
    · norm_num
  refine all_cons ?_ ?_
  · refine tst (bm_ml_ok (lam := 1.5) (by norm_num) 1 1) (w := 1 * √(2 / 5)) (d := (158113883 / 250000000000000000)) (by beta_reduce; rw [vbm_pl_val (by norm_num) 1 1 (by norm_num) (q := (2 / 5)) (by norm_num [RisingFactorial, Finset.prod_range_succ, Nat.factorial])] <;> norm_num [] <;> ring) (by norm_num) (by norm_num [abs_of_pos, abs_of_neg]) ?_ ?_
    · have h0 := root_bounds (q := (2 / 5)) (l := (395284707521 / 625000000000)) (u := (6324555320337 / 10000000000000)) (by norm_num) (by norm_num) (by norm_num); linarith
    · have h0 := root_bounds (q := (2 / 5)) (l := (395284707521 / 625000000000)) (u := (6324555320337 / 10000000000000)) (by norm_num) (by norm_num) (by norm_num); linarith
  refine all_cons ?_ ?_
  · refine tst (bm_ml_ok (lam := 1.5) (by norm_num) 1 2) (w := (-1) * √(8 / 35)) (d := (4780914437 / 10000000000000000000)) (by beta_reduce; rw [vbm_pl_val (by norm_num) 2 1 (by norm_num) (q := (8 / 35)) (by norm_num [RisingFactorial, Finset.prod_range_succ, Nat.factorial])] <;> norm_num [] <;> ring) (by norm_num) (by norm_num [abs_of_pos, abs_of_neg]) ?_ ?_
    · have h0 := root_bounds (q := (8 / 35)) (l := (4780914437337 / 10000000000000)) (u := (2390457218669 / 5000000000000)) (by norm_num) (by norm_num) (by norm_num); linarith
    · have h0 := root_bounds (q := (8 / 35)) (l := (4780914437337 / 10000000000000)) (u := (2390457218669 / 5000000000000)) (by norm_num) (by norm_num) (by norm_num); linarith
  refine all_cons ?_ ?_
  · refine tst (bm_ml_ok (lam := 1.5) (by norm_num) 2 0) (w := 0) (d := 0) (by norm_num [vbm_pl] <;> ring) (by norm_num) (by norm_num [abs_of_pos, abs_of_neg]) ?_ ?_
    · norm_num
    · norm_num
  refine all_cons ?_ ?_
  · refine tst (bm_ml_ok (lam := 1.5) (by norm_num) 2 1) (w := 0) (d := 0) (by norm_num [vbm_pl] <;> ring) (by norm_num) (by norm_num [abs_of_pos, abs_of_neg]) ?_ ?_
    · norm_num
    · norm_num
  refine all_cons ?_ ?_
  · refine tst (bm_ml_ok (lam := 1.5) (by norm_num) 2 2) (w := 1 * √(2 / 7)) (d := (5345224837 / 10000000000000000000)) (by beta_reduce; rw [vbm_pl_val (by norm_num) 2 2 (by norm_num) (q := (2 / 7)) (by norm_num [RisingFactorial, Finset.prod_range_succ, Nat.factorial])] <;> norm_num [] <;> ring) (by norm_num) (by norm_num [abs_of_pos, abs_of_neg]) ?_ ?_
    · have h0 := root_bounds (q := (2 / 7)) (l := (668153104781 / 1250000000000)) (u := (5345224838249 / 10000000000000)) (by norm_num) (by norm_num) (by norm_num); linarith
    · have h0 := root_bounds (q := (2 / 7)) (l := (668153104781 / 1250000000000)) (u := (5345224838249 / 10000000000000)) (by norm_num) (by norm_num) (by norm_num); linarith
  exact all_nil

/-- `ME_Radial_Db_ml`. -/
theorem test_Db_ml : ∀ t ∈ tests_Db_ml, ∃ x, ME_Radial_Db_ml 2.5 t.1 t.2.1 = .ok x ∧ IsClose 1e-9 1e-9 x t.2.2 := by
  rw [show (2.5 : ℝ) = 1.5 + 1 by norm_num]
  refine all_cons ?_ ?_
  · refine tst_abs (Db_ml_ok (lam := 1.5) (by norm_num) 0 0) (w := 1 * √(3 / 2) + (-1) * √(2 / 3)) (d := (1 / 1000000000)) (by beta_reduce; rw [vDb_ml, vbm_pl_val (by norm_num) 0 0 (by norm_num) (q := (2 / 3)) (by norm_num [RisingFactorial, Finset.prod_range_succ, Nat.factorial])] <;> norm_num [] <;> ring) (by norm_num) (by norm_num [abs_of_pos, abs_of_neg]) ?_ ?_
    · have h0 := root_bounds (q := (2 / 3)) (l := (8164965809277 / 10000000000000)) (u := (4082482904639 / 5000000000000)) (by norm_num) (by norm_num) (by norm_num); have h1 := root_bounds (q := (3 / 2)) (l := (2449489742783 / 2000000000000)) (u := (3061862178479 / 2500000000000)) (by norm_num) (by norm_num) (by norm_num); linarith
    · have h0 := root_bounds (q := (2 / 3)) (l := (8164965809277 / 10000000000000)) (u := (4082482904639 / 5000000000000)) (by norm_num) (by norm_num) (by norm_num); have h1 := root_bounds (q := (3 / 2)) (l := (2449489742783 / 2000000000000)) (u := (3061862178479 / 2500000000000)) (by norm_num) (by norm_num) (by norm_num); linarith
  refine all_cons ?_ ?_
  · refine tst_abs (Db_ml_ok (lam := 1.5) (by norm_num) 0 1) (w := 1 * √(4 / 15)) (d := (1 / 1000000000)) (by beta_reduce; rw [vDb_ml, vbm_pl_val (by norm_num) 1 0 (by norm_num) (q := (4 / 15)) (by norm_num [RisingFactorial, Finset.prod_range_succ, Nat.factorial])] <;> norm_num [] <;> ring) (by norm_num) (by norm_num [abs_of_pos, abs_of_neg]) ?_ ?_
    · have h0 := root_bounds (q := (4 / 15)) (l := (5163977794943 / 10000000000000)) (u := (40343576523 / 78125000000)) (by norm_num) (by norm_num) (by norm_num); linarith
    · have h0 := root_bounds (q := (4 / 15)) (l := (5163977794943 / 10000000000000)) (u := (40343576523 / 78125000000)) (by norm_num) (by norm_num) (by norm_num); linarith
  refine all_cons ?_ ?_
  · refine tst_abs (Db_ml_ok (lam := 1.5) (by norm_num) 0 2) (w := (-1) * √(16 / 105)) (d := (1 / 1000000000)) (by beta_reduce; rw [vDb_ml, vbm_pl_val (by norm_num) 2 0 (by norm_num) (q := (16 / 105)) (by norm_num [RisingFactorial, Finset.prod_range_succ, Nat.factorial])] <;> norm_num [] <;> ring) (by norm_num) (by norm_num [abs_of_pos, abs_of_neg]) ?_ ?_
    · have h0 := root_bounds (q := (16 / 105)) (l := (1951800145897 / 5000000000000)) (u := (780720058359 / 2000000000000)) (by norm_num) (by norm_num) (by norm_num); linarith
    · have h0 := root_bounds (q := (16 / 105)) (l := (1951800145897 / 5000000000000)) (u := (780720058359 / 2000000000000)) (by norm_num) (by norm_num) (by norm_num); linarith
  refine all_cons ?_ ?_
  · refine tst_abs (Db_ml_ok (lam := 1.5) (by norm_num) 1 0) (w := (-1)) (d := (1 / 1000000000)) (by beta_reduce; rw [vDb_ml] <;> norm_num [vbm_pl] <;> ring) (by norm_num) (by norm_num [abs_of_pos, abs_of_neg]) ?_ ?_
    · norm_num
    · norm_num
  refine all_cons ?_ ?_
  · refine tst_abs (Db_ml_ok (lam := 1.5) (by norm_num) 1 1) (w := 1 * √(5 / 2) + (-1) * √(2 / 5)) (d := (1 / 1000000000)) (by beta_reduce; rw [vDb_ml, vbm_pl_val (by norm_num) 1 1 (by norm_num) (q := (2 / 5)) (by norm_num [RisingFactorial, Finset.prod_range_succ, Nat.factorial])] <;> norm_num [] <;> ring) (by norm_num) (by norm_num [abs_of_pos, abs_of_neg]) ?_ ?_
    · have h0 := root_bounds (q := (2 / 5)) (l := (395284707521 / 625000000000)) (u := (6324555320337 / 10000000000000)) (by norm_num) (by norm_num) (by norm_num); have h1 := root_bounds (q := (5 / 2)) (l := (15811388300841 / 10000000000000)) (u := (7905694150421 / 5000000000000)) (by norm_num) (by norm_num) (by norm_num); linarith
    · have h0 := root_bounds (q := (2 / 5)) (l := (395284707521 / 625000000000)) (u := (6324555320337 / 10000000000000)) (by norm_num) (by norm_num) (by norm_num); have h1 := root_bounds (q := (5 / 2)) (l := (15811388300841 / 10000000000000)) (u := (7905694150421 / 5000000000000)) (by norm_num) (by norm_num) (by norm_num); linarith
  refine all_cons ?_ ?_
  · refine tst_abs (Db_ml_ok (lam := 1.5) (by norm_num) 1 2) (w := 1 * √(8 / 35)) (d := (1 / 1000000000)) (by beta_reduce; rw [vDb_ml, vbm_pl_val (by norm_num) 2 1 (by norm_num) (q := (8 / 35)) (by norm_num [RisingFactorial, Finset.prod_range_succ, Nat.factorial])] <;> norm_num [] <;> ring) (by norm_num) (by norm_num [abs_of_pos, abs_of_neg]) ?_ ?_
    · have h0 := root_bounds (q := (8 / 35)) (l := (4780914437337 / 10000000000000)) (u := (2390457218669 / 5000000000000)) (by norm_num) (by norm_num) (by norm_num); linarith
    · have h0 := root_bounds (q := (8 / 35)) (l := (4780914437337 / 10000000000000)) (u := (2390457218669 / 5000000000000)) (by norm_num) (by norm_num) (by norm_num); linarith
  refine all_cons ?_ ?_
  · refine tst_abs (Db_ml_ok (lam := 1.5) (by norm_num) 2 0) (w := 0) (d := (1 / 1000000000)) (by beta_reduce; rw [vDb_ml] <;> norm_num [vbm_pl] <;> ring) (by norm_num) (by norm_num [abs_of_pos, abs_of_neg]) ?_ ?_
    · norm_num
    · norm_num
  refine all_cons ?_ ?_
  · refine tst_abs (Db_ml_ok (lam := 1.5) (by norm_num) 2 1) (w := (-1) * √2) (d := (1 / 1000000000)) (by beta_reduce; rw [vDb_ml] <;> norm_num [vbm_pl] <;> ring) (by norm_num) (by norm_num [abs_of_pos, abs_of_neg]) ?_ ?_
    · have h0 := root_bounds (q := 2) (l := (1414213562373 / 1000000000000)) (u := (14142135623731 / 10000000000000)) (by norm_num) (by norm_num) (by norm_num); linarith
    · have h0 := root_bounds (q := 2) (l := (1414213562373 / 1000000000000)) (u := (14142135623731 / 10000000000000)) (by norm_num) (by norm_num) (by norm_num); linarith
  refine all_cons ?_ ?_
  · refine tst_abs (Db_ml_ok (lam := 1.5) (by norm_num) 2 2) (w := 1 * √(7 / 2) + (-1) * √(2 / 7)) (d := (1 / 1000000000)) (by beta_reduce; rw [vDb_ml, vbm_pl_val (by norm_num) 2 2 (by norm_num) (q := (2 / 7)) (by norm_num [RisingFactorial, Finset.prod_range_succ, Nat.factorial])] <;> norm_num [] <;> ring) (by norm_num) (by norm_num [abs_of_pos, abs_of_neg]) ?_ ?_
    · have h0 := root_bounds (q := (2 / 7)) (l := (668153104781 / 1250000000000)) (u := (5345224838249 / 10000000000000)) (by norm_num) (by norm_num) (by norm_num); have h1 := root_bounds (q := (7 / 2)) (l := (18708286933869 / 10000000000000)) (u := (1870828693387 / 1000000000000)) (by norm_num) (by norm_num) (by norm_num); linarith
    · have h0 := root_bounds (q := (2 / 7)) (l := (668153104781 / 1250000000000)) (u := (5345224838249 / 10000000000000)) (by norm_num) (by norm_num) (by norm_num); have h1 := root_bounds (q := (7 / 2)) (l := (18708286933869 / 10000000000000)) (u := (1870828693387 / 1000000000000)) (by norm_num) (by norm_num) (by norm_num); linarith
  exact all_nil

/-- `ME_Radial_id_pl`. -/
theorem test_id_pl : ∀ t ∈ tests_id_pl, ∃ x, ME_Radial_id_pl 5.5 t.1 t.2.1 t.2.2.1 = .ok x ∧ IsClose 1e-9 0 x t.2.2.2 := by
  refine all_cons ?_ ?_
  · refine tst (id_pl_ok (lam := 5.5) (by norm_num) 0 0 0) (w := 1) (d := (1 / 1000000000)) (by rw [vid_pl_val (by norm_num) 0 0 0 (p := 1) (q := 1) (by norm_num [MF_Radial_id_pl, RisingFactorial, Finset.prod_range_succ, Finset.sum_Ico_eq_sum_range, Finset.sum_range_succ, Nat.choose]) (by norm_num [RisingFactorial, Finset.prod_range_succ, Nat.factorial])] <;> norm_num [] <;> ring) (by norm_num) (by norm_num [abs_of_pos, abs_of_neg]) ?_ ?_
    · norm_num
    · norm_num
  refine all_cons ?_ ?_
  · refine tst (id_pl_ok (lam := 5.5) (by norm_num) 1 0 0) (w := (11 / 2) * √(4 / 143)) (d := (919866211 / 1000000000000000000)) (by rw [vid_pl_val (by norm_num) 1 0 0 (p := (11 / 2)) (q := (4 / 143)) (by norm_num [MF_Radial_id_pl, RisingFactorial, Finset.prod_range_succ, Finset.sum_Ico_eq_sum_range, Finset.sum_range_succ, Nat.choose]) (by norm_num [RisingFactorial, Finset.prod_range_succ, Nat.factorial])] <;> norm_num [] <;> ring) (by norm_num) (by norm_num [abs_of_pos, abs_of_neg]) ?_ ?_
    · have h0 := root_bounds (q := (4 / 143)) (l := (836242010007 / 5000000000000)) (u := (334496804003 / 2000000000000)) (by norm_num) (by norm_num) (by norm_num); linarith
    · have h0 := root_bounds (q := (4 / 143)) (l := (836242010007 / 5000000000000)) (u := (334496804003 / 2000000000000)) (by norm_num) (by norm_num) (by norm_num); linarith
  refine all_cons ?_ ?_
  · refine tst (id_pl_ok (lam := 5.5) (by norm_num) 2 0 0) (w := (143 / 4) * √(16 / 36465)) (d := (3744276677 / 5000000000000000000)) (by rw [vid_pl_val (by norm_num) 2 0 0 (p := (143 / 4)) (q := (16 / 36465)) (by norm_num [MF_Radial_id_pl, RisingFactorial, Finset.prod_range_succ, Finset.sum_Ico_eq_sum_range, Finset.sum_range_succ, Nat.choose]) (by norm_num [RisingFactorial, Finset.prod_range_succ, Nat.factorial])] <;> norm_num [] <;> ring) (by norm_num) (by norm_num [abs_of_pos, abs_of_neg]) ?_ ?_
    · have h0 := root_bounds (q := (16 / 36465)) (l := (52367505989 / 2500000000000)) (u := (209470023957 / 10000000000000)) (by norm_num) (by norm_num) (by norm_num); linarith
    · have h0 := root_bounds (q := (16 / 36465)) (l := (52367505989 / 2500000000000)) (u := (209470023957 / 10000000000000)) (by norm_num) (by norm_num) (by norm_num); linarith
  refine all_cons ?_ ?_
  · refine tst (id_pl_ok (lam := 5.5) (by norm_num) 0 0 1) (w := 0) (d := 0) (by rw [vid_pl_zero (by norm_num)] <;> norm_num [] <;> ring) (by norm_num) (by norm_num [abs_of_pos, abs_of_neg]) ?_ ?_
    · norm_num
    · norm_num
  refine all_cons ?_ ?_
  · refine tst (id_pl_ok (lam := 5.5) (by norm_num) 1 0 1) (w := 1 * √(2 / 13)) (d := (1961161351 / 5000000000000000000)) (by rw [vid_pl_val (by norm_num) 1 0 1 (p := 1) (q := (2 / 13)) (by norm_num [MF_Radial_id_pl, RisingFactorial, Finset.prod_range_succ, Finset.sum_Ico_eq_sum_range, Finset.sum_range_succ, Nat.choose]) (by norm_num [RisingFactorial, Finset.prod_range_succ, Nat.factorial])] <;> norm_num [] <;> ring) (by norm_num) (by norm_num [abs_of_pos, abs_of_neg]) ?_ ?_
    · have h0 := root_bounds (q := (2 / 13)) (l := (3922322702763 / 10000000000000)) (u := (980580675691 / 2500000000000)) (by norm_num) (by norm_num) (by norm_num); linarith
    · have h0 := root_bounds (q := (2 / 13)) (l := (3922322702763 / 10000000000000)) (u := (980580675691 / 2500000000000)) (by norm_num) (by norm_num) (by norm_num); linarith
  refine all_cons ?_ ?_
  · refine tst (id_pl_ok (lam := 5.5) (by norm_num) 2 0 1) (w := 13 * √(8 / 3315)) (d := (6386259759 / 10000000000000000000)) (by rw [vid_pl_val (by norm_num) 2 0 1 (p := 13) (q := (8 / 3315)) (by norm_num [MF_Radial_id_pl, RisingFactorial, Finset.prod_range_succ, Finset.sum_Ico_eq_sum_range, Finset.sum_range_succ, Nat.choose]) (by norm_num [RisingFactorial, Finset.prod_range_succ, Nat.factorial])] <;> norm_num [] <;> ring) (by norm_num) (by norm_num [abs_of_pos, abs_of_neg]) ?_ ?_
    · have h0 := root_bounds (q := (8 / 3315)) (l := (491250750789 / 10000000000000)) (u := (49125075079 / 1000000000000)) (by norm_num) (by norm_num) (by norm_num); linarith
    · have h0 := root_bounds (q := (8 / 3315)) (l := (491250750789 / 10000000000000)) (u := (49125075079 / 1000000000000)) (by norm_num) (by norm_num) (by norm_num); linarith
  refine all_cons ?_ ?_
  · refine tst (id_pl_ok (lam := 5.5) (by norm_num) 0 0 2) (w := 0) (d := 0) (by rw [vid_pl_zero (by norm_num)] <;> norm_num [] <;> ring) (by norm_num) (by norm_num [abs_of_pos, abs_of_neg]) ?_ ?_
    · norm_num
    · norm_num
  refine all_cons ?_ ?_
  · refine tst (id_pl_ok (lam := 5.5) (by norm_num) 1 0 2) (w := 0) (d := 0) (by rw [vid_pl_zero (by norm_num)] <;> norm_num [] <;> ring) (by norm_num) (by norm_num [abs_of_pos, abs_of_neg]) ?_ ?_
    · norm_num
    · norm_num
  refine all_cons ?_ ?_
  · refine tst (id_pl_ok (lam := 5.5) (by norm_num) 2 0 2) (w := 2 * √(2 / 255)) (d := (1771229771 / 10000000000000000000)) (by rw [vid_pl_val (by norm_num) 2 0 2 (p := 2) (q := (2 / 255)) (by norm_num [MF_Radial_id_pl, RisingFactorial, Finset.prod_range_succ, Finset.sum_Ico_eq_sum_range, Finset.sum_range_succ, Nat.choose]) (by norm_num [RisingFactorial, Finset.prod_range_succ, Nat.factorial])] <;> norm_num [] <;> ring) (by norm_num) (by norm_num [abs_of_pos, abs_of_neg]) ?_ ?_
    · have h0 := root_bounds (q := (2 / 255)) (l := (44280744277 / 500000000000)) (u := (885614885541 / 10000000000000)) (by norm_num) (by norm_num) (by norm_num); linarith
    · have h0 := root_bounds (q := (2 / 255)) (l := (44280744277 / 500000000000)) (u := (885614885541 / 10000000000000)) (by norm_num) (by norm_num) (by norm_num); linarith
  refine all_cons ?_ ?_
  · refine tst (id_pl_ok (lam := 5.5) (by norm_num) 0 1 0) (w := 0) (d := 0) (by rw [vid_pl_val (by norm_num) 0 1 0 (p := 0) (q := (2 / 11)) (by norm_num [MF_Radial_id_pl, RisingFactorial, Finset.prod_range_succ, Finset.sum_Ico_eq_sum_range, Finset.sum_range_succ, Nat.choose]) (by norm_num [RisingFactorial, Finset.prod_range_succ, Nat.factorial])] <;> norm_num [] <;> ring) (by norm_num) (by norm_num [abs_of_pos, abs_of_neg]) ?_ ?_
    · norm_num
    · norm_num
  refine all_cons ?_ ?_
  · refine tst (id_pl_ok (lam := 5.5) (by norm_num) 1 1 0) (w := (-11 / 2) * √(8 / 2145)) (d := (3358876491 / 10000000000000000000)) (by rw [vid_pl_val (by norm_num) 1 1 0 (p := (-11 / 2)) (q := (8 / 2145)) (by norm_num [MF_Radial_id_pl, RisingFactorial, Finset.prod_range_succ, Finset.sum_Ico_eq_sum_range, Finset.sum_range_succ, Nat.choose]) (by norm_num [RisingFactorial, Finset.prod_range_succ, Nat.factorial])] <;> norm_num [] <;> ring) (by norm_num) (by norm_num [abs_of_pos, abs_of_neg]) ?_ ?_
    · have h0 := root_bounds (q := (8 / 2145)) (l := (76338102069 / 1250000000000)) (u := (610704816553 / 10000000000000)) (by norm_num) (by norm_num) (by norm_num); linarith
    · have h0 := root_bounds (q := (8 / 2145)) (l := (76338102069 / 1250000000000)) (u := (610704816553 / 10000000000000)) (by norm_num) (by norm_num) (by norm_num); linarith
  refine all_cons ?_ ?_
  · refine tst (id_pl_ok (lam := 5.5) (by norm_num) 2 1 0) (w := (-143 / 2) * √(32 / 692835)) (d := (485921507 / 1000000000000000000)) (by rw [vid_pl_val (by norm_num) 2 1 0 (p := (-143 / 2)) (q := (32 / 692835)) (by norm_num [MF_Radial_id_pl, RisingFactorial, Finset.prod_range_succ, Finset.sum_Ico_eq_sum_range, Finset.sum_range_succ, Nat.choose]) (by norm_num [RisingFactorial, Finset.prod_range_succ, Nat.factorial])] <;> norm_num [] <;> ring) (by norm_num) (by norm_num [abs_of_pos, abs_of_neg]) ?_ ?_
    · have h0 := root_bounds (q := (32 / 692835)) (l := (67961049941 / 10000000000000)) (u := (33980524971 / 5000000000000)) (by norm_num) (by norm_num) (by norm_num); linarith
    · have h0 := root_bounds (q := (32 / 692835)) (l := (67961049941 / 10000000000000)) (u := (33980524971 / 5000000000000)) (by norm_num) (by norm_num) (by norm_num); linarith
  refine all_cons ?_ ?_
  · refine tst (id_pl_ok (lam := 5.5) (by norm_num) 0 1 1) (w := 1) (d := (1 / 1000000000)) (by rw [vid_pl_val (by norm_num) 0 1 1 (p := 1) (q := 1) (by norm_num [MF_Radial_id_pl, RisingFactorial, Finset.prod_range_succ, Finset.sum_Ico_eq_sum_range, Finset.sum_range_succ, Nat.choose]) (by norm_num [RisingFactorial, Finset.prod_range_succ, Nat.factorial])] <;> norm_num [] <;> ring) (by norm_num) (by norm_num [abs_of_pos, abs_of_neg]) ?_ ?_
    · norm_num
    · norm_num
  refine all_cons ?_ ?_
  · refine tst (id_pl_ok (lam := 5.5) (by norm_num) 1 1 1) (w := (11 / 2) * √(4 / 195)) (d := (3938631807 / 5000000000000000000)) (by rw [vid_pl_val (by norm_num) 1 1 1 (p := (11 / 2)) (q := (4 / 195)) (by norm_num [MF_Radial_id_pl, RisingFactorial, Finset.prod_range_succ, Finset.sum_Ico_eq_sum_range, Finset.sum_range_succ, Nat.choose]) (by norm_num [RisingFactorial, Finset.prod_range_succ, Nat.factorial])] <;> norm_num [] <;> ring) (by norm_num) (by norm_num [abs_of_pos, abs_of_neg]) ?_ ?_
    · have h0 := root_bounds (q := (4 / 195)) (l := (716114874039 / 5000000000000)) (u := (1432229748079 / 10000000000000)) (by norm_num) (by norm_num) (by norm_num); linarith
    · have h0 := root_bounds (q := (4 / 195)) (l := (716114874039 / 5000000000000)) (u := (1432229748079 / 10000000000000)) (by norm_num) (by norm_num) (by norm_num); linarith
  refine all_cons ?_ ?_
  · refine tst (id_pl_ok (lam := 5.5) (by norm_num) 2 1 1) (w := (91 / 4) * √(16 / 62985)) (d := (906489617 / 2500000000000000000)) (by rw [vid_pl_val (by norm_num) 2 1 1 (p := (91 / 4)) (q := (16 / 62985)) (by norm_num [MF_Radial_id_pl, RisingFactorial, Finset.prod_range_succ, Finset.sum_Ico_eq_sum_range, Finset.sum_range_succ, Nat.choose]) (by norm_num [RisingFactorial, Finset.prod_range_succ, Nat.factorial])] <;> norm_num [] <;> ring) (by norm_num) (by norm_num [abs_of_pos, abs_of_neg]) ?_ ?_
    · have h0 := root_bounds (q := (16 / 62985)) (l := (159382789849 / 10000000000000)) (u := (3187655797 / 200000000000)) (by norm_num) (by norm_num) (by norm_num); linarith
    · have h0 := root_bounds (q := (16 / 62985)) (l := (159382789849 / 10000000000000)) (u := (3187655797 / 200000000000)) (by norm_num) (by norm_num) (by norm_num); linarith
  refine all_cons ?_ ?_
  · refine tst (id_pl_ok (lam := 5.5) (by norm_num) 0 1 2) (w := 0) (d := 0) (by rw [vid_pl_zero (by norm_num)] <;> norm_num [] <;> ring) (by norm_num) (by norm_num [abs_of_pos, abs_of_neg]) ?_ ?_
    · norm_num
    · norm_num
  refine all_cons ?_ ?_
  · refine tst (id_pl_ok (lam := 5.5) (by norm_num) 1 1 2) (w := 2 * √(1 / 15)) (d := (1290994449 / 2500000000000000000)) (by rw [vid_pl_val (by norm_num) 1 1 2 (p := 2) (q := (1 / 15)) (by norm_num [MF_Radial_id_pl, RisingFactorial, Finset.prod_range_succ, Finset.sum_Ico_eq_sum_range, Finset.sum_range_succ, Nat.choose]) (by norm_num [RisingFactorial, Finset.prod_range_succ, Nat.factorial])] <;> norm_num [] <;> ring) (by norm_num) (by norm_num [abs_of_pos, abs_of_neg]) ?_ ?_
    · have h0 := root_bounds (q := (1 / 15)) (l := (2581988897471 / 10000000000000)) (u := (40343576523 / 156250000000)) (by norm_num) (by norm_num) (by norm_num); linarith
    · have h0 := root_bounds (q := (1 / 15)) (l := (2581988897471 / 10000000000000)) (u := (40343576523 / 156250000000)) (by norm_num) (by norm_num) (by norm_num); linarith
  refine all_cons ?_ ?_
  · refine tst (id_pl_ok (lam := 5.5) (by norm_num) 2 1 2) (w := 26 * √(4 / 4845)) (d := (1867654169 / 2500000000000000000)) (by rw [vid_pl_val (by norm_num) 2 1 2 (p := 26) (q := (4 / 4845)) (by norm_num [MF_Radial_id_pl, RisingFactorial, Finset.prod_range_succ, Finset.sum_Ico_eq_sum_range, Finset.sum_range_succ, Nat.choose]) (by norm_num [RisingFactorial, Finset.prod_range_succ, Nat.factorial])] <;> norm_num [] <;> ring) (by norm_num) (by norm_num [abs_of_pos, abs_of_neg]) ?_ ?_
    · have h0 := root_bounds (q := (4 / 4845)) (l := (287331410613 / 10000000000000)) (u := (143665705307 / 5000000000000)) (by norm_num) (by norm_num) (by norm_num); linarith
    · have h0 := root_bounds (q := (4 / 4845)) (l := (287331410613 / 10000000000000)) (u := (143665705307 / 5000000000000)) (by norm_num) (by norm_num) (by norm_num); linarith
  refine all_cons ?_ ?_
  · refine tst (id_pl_ok (lam := 5.5) (by norm_num) 0 2 0) (w := 0) (d := 0) (by rw [vid_pl_val (by norm_num) 0 2 0 (p := 0) (q := (8 / 143)) (by norm_num [MF_Radial_id_pl, RisingFactorial, Finset.prod_range_succ, Finset.sum_Ico_eq_sum_range, Finset.sum_range_succ, Nat.choose]) (by norm_num [RisingFactorial, Finset.prod_range_succ, Nat.factorial])] <;> norm_num [] <;> ring) (by norm_num) (by norm_num [abs_of_pos, abs_of_neg]) ?_ ?_
    · norm_num
    · norm_num
  refine all_cons ?_ ?_
  · refine tst (id_pl_ok (lam := 5.5) (by norm_num) 1 2 0) (w := (11 / 2) * √(32 / 36465)) (d := (814647209 / 5000000000000000000)) (by rw [vid_pl_val (by norm_num) 1 2 0 (p := (11 / 2)) (q := (32 / 36465)) (by norm_num [MF_Radial_id_pl, RisingFactorial, Finset.prod_range_succ, Finset.sum_Ico_eq_sum_range, Finset.sum_range_succ, Nat.choose]) (by norm_num [RisingFactorial, Finset.prod_range_succ, Nat.factorial])] <;> norm_num [] <;> ring) (by norm_num) (by norm_num [abs_of_pos, abs_of_neg]) ?_ ?_
    · have h0 := root_bounds (q := (32 / 36465)) (l := (29623534879 / 1000000000000)) (u := (296235348791 / 10000000000000)) (by norm_num) (by norm_num) (by norm_num); linarith
    · have h0 := root_bounds (q := (32 / 36465)) (l := (29623534879 / 1000000000000)) (u := (296235348791 / 10000000000000)) (by norm_num) (by norm_num) (by norm_num); linarith
  refine all_cons ?_ ?_
  · refine tst (id_pl_ok (lam := 5.5) (by norm_num) 2 2 0) (w := (429 / 4) * √(128 / 14549535)) (d := (397637873 / 1250000000000000000)) (by rw [vid_pl_val (by norm_num) 2 2 0 (p := (429 / 4)) (q := (128 / 14549535)) (by norm_num [MF_Radial_id_pl, RisingFactorial, Finset.prod_range_succ, Finset.sum_Ico_eq_sum_range, Finset.sum_range_succ, Nat.choose]) (by norm_num [RisingFactorial, Finset.prod_range_succ, Nat.factorial])] <;> norm_num [] <;> ring) (by norm_num) (by norm_num [abs_of_pos, abs_of_neg]) ?_ ?_
    · have h0 := root_bounds (q := (128 / 14549535)) (l := (1853789617 / 625000000000)) (u := (29660633873 / 10000000000000)) (by norm_num) (by norm_num) (by norm_num); linarith
    · have h0 := root_bounds (q := (128 / 14549535)) (l := (1853789617 / 625000000000)) (u := (29660633873 / 10000000000000)) (by norm_num) (by norm_num) (by norm_num); linarith
  refine all_cons ?_ ?_
  · refine tst (id_pl_ok (lam := 5.5) (by norm_num) 0 2 1) (w := 0) (d := 0) (by rw [vid_pl_val (by norm_num) 0 2 1 (p := 0) (q := (4 / 13)) (by norm_num [MF_Radial_id_pl, RisingFactorial, Finset.prod_range_succ, Finset.sum_Ico_eq_sum_range, Finset.sum_range_succ, Nat.choose]) (by norm_num [RisingFactorial, Finset.prod_range_succ, Nat.factorial])] <;> norm_num [] <;> ring) (by norm_num) (by norm_num [abs_of_pos, abs_of_neg]) ?_ ?_
    · norm_num
    · norm_num
  refine all_cons ?_ ?_
  · refine tst (id_pl_ok (lam := 5.5) (by norm_num) 1 2 1) (w := (-11 / 2) * √(16 / 3315)) (d := (3821034109 / 10000000000000000000)) (by rw [vid_pl_val (by norm_num) 1 2 1 (p := (-11 / 2)) (q := (16 / 3315)) (by norm_num [MF_Radial_id_pl, RisingFactorial, Finset.prod_range_succ, Finset.sum_Ico_eq_sum_range, Finset.sum_range_succ, Nat.choose]) (by norm_num [RisingFactorial, Finset.prod_range_succ, Nat.factorial])] <;> norm_num [] <;> ring) (by norm_num) (by norm_num [abs_of_pos, abs_of_neg]) ?_ ?_
    · have h0 := root_bounds (q := (16 / 3315)) (l := (694733474291 / 10000000000000)) (u := (173683368573 / 2500000000000)) (by norm_num) (by norm_num) (by norm_num); linarith
    · have h0 := root_bounds (q := (16 / 3315)) (l := (694733474291 / 10000000000000)) (u := (173683368573 / 2500000000000)) (by norm_num) (by norm_num) (by norm_num); linarith
  refine all_cons ?_ ?_
  · refine tst (id_pl_ok (lam := 5.5) (by norm_num) 2 2 1) (w := (-117 / 2) * √(64 / 1322685)) (d := (4069280609 / 10000000000000000000)) (by rw [vid_pl_val (by norm_num) 2 2 1 (p := (-117 / 2)) (q := (64 / 1322685)) (by norm_num [MF_Radial_id_pl, RisingFactorial, Finset.prod_range_succ, Finset.sum_Ico_eq_sum_range, Finset.sum_range_succ, Nat.choose]) (by norm_num [RisingFactorial, Finset.prod_range_succ, Nat.factorial])] <;> norm_num [] <;> ring) (by norm_num) (by norm_num [abs_of_pos, abs_of_neg]) ?_ ?_
    · have h0 := root_bounds (q := (64 / 1322685)) (l := (69560352281 / 10000000000000)) (u := (34780176141 / 5000000000000)) (by norm_num) (by norm_num) (by norm_num); linarith
    · have h0 := root_bounds (q := (64 / 1322685)) (l := (69560352281 / 10000000000000)) (u := (34780176141 / 5000000000000)) (by norm_num) (by norm_num) (by norm_num); linarith
  refine all_cons ?_ ?_
  · refine tst (id_pl_ok (lam := 5.5) (by norm_num) 0 2 2) (w := 1) (d := (1 / 1000000000)) (by rw [vid_pl_val (by norm_num) 0 2 2 (p := 1) (q := 1) (by norm_num [MF_Radial_id_pl, RisingFactorial, Finset.prod_range_succ, Finset.sum_Ico_eq_sum_range, Finset.sum_range_succ, Nat.choose]) (by norm_num [RisingFactorial, Finset.prod_range_succ, Nat.factorial])] <;> norm_num [] <;> ring) (by norm_num) (by norm_num [abs_of_pos, abs_of_neg]) ?_ ?_
    · norm_num
    · norm_num
  refine all_cons ?_ ?_
  · refine tst (id_pl_ok (lam := 5.5) (by norm_num) 1 2 2) (w := (11 / 2) * √(4 / 255)) (d := (6888467201 / 10000000000000000000)) (by rw [vid_pl_val (by norm_num) 1 2 2 (p := (11 / 2)) (q := (4 / 255)) (by norm_num [MF_Radial_id_pl, RisingFactorial, Finset.prod_range_succ, Finset.sum_Ico_eq_sum_range, Finset.sum_range_succ, Nat.choose]) (by norm_num [RisingFactorial, Finset.prod_range_succ, Nat.factorial])] <;> norm_num [] <;> ring) (by norm_num) (by norm_num [abs_of_pos, abs_of_neg]) ?_ ?_
    · have h0 := root_bounds (q := (4 / 255)) (l := (125244858217 / 1000000000000)) (u := (1252448582171 / 10000000000000)) (by norm_num) (by norm_num) (by norm_num); linarith
    · have h0 := root_bounds (q := (4 / 255)) (l := (125244858217 / 1000000000000)) (u := (1252448582171 / 10000000000000)) (by norm_num) (by norm_num) (by norm_num); linarith
  refine all_cons ?_ ?_
  · refine tst (id_pl_ok (lam := 5.5) (by norm_num) 2 2 2) (w := (39 / 4) * √(16 / 101745)) (d := (611333329 / 5000000000000000000)) (by rw [vid_pl_val (by norm_num) 2 2 2 (p := (39 / 4)) (q := (16 / 101745)) (by norm_num [MF_Radial_id_pl, RisingFactorial, Finset.prod_range_succ, Finset.sum_Ico_eq_sum_range, Finset.sum_range_succ, Nat.choose]) (by norm_num [RisingFactorial, Finset.prod_range_succ, Nat.factorial])] <;> norm_num [] <;> ring) (by norm_num) (by norm_num [abs_of_pos, abs_of_neg]) ?_ ?_
    · have h0 := root_bounds (q := (16 / 101745)) (l := (25080341689 / 2000000000000)) (u := (62700854223 / 5000000000000)) (by norm_num) (by norm_num) (by norm_num); linarith
    · have h0 := root_bounds (q := (16 / 101745)) (l := (25080341689 / 2000000000000)) (u := (62700854223 / 5000000000000)) (by norm_num) (by norm_num) (by norm_num); linarith
  exact all_nil

/-- `ME_Radial_id_ml`. -/
theorem test_id_ml : ∀ t ∈ tests_id_ml, ∃ x, ME_Radial_id_ml 5.5 t.1 t.2.1 t.2.2.1 = .ok x ∧ IsClose 1e-9 0 x t.2.2.2 := by
  refine all_cons ?_ ?_
  · refine tst (by have h := (id_ml_ok (lam := 5.5) (by norm_num) 0 0 0 : ME_Radial_id_ml (5.5 + 2 * (0 : ℕ)) 0 0 0 = _); rw [show (5.5 + 2 * ((0 : ℕ) : ℝ) : ℝ) = 5.5 by norm_num] at h; exact h) (w := 1) (d := (1 / 1000000000)) (by beta_reduce; rw [vid_pl_val (by norm_num) 0 0 0 (p := 1) (q := 1) (by norm_num [MF_Radial_id_pl, RisingFactorial, Finset.prod_range_succ, Finset.sum_Ico_eq_sum_range, Finset.sum_range_succ, Nat.choose]) (by norm_num [RisingFactorial, Finset.prod_range_succ, Nat.factorial])] <;> norm_num [] <;> ring) (by norm_num) (by norm_num [abs_of_pos, abs_of_neg]) ?_ ?_
    · norm_num
    · norm_num
  refine all_cons ?_ ?_
  · refine tst (by have h := (id_ml_ok (lam := 3.5) (by norm_num) 1 0 0 : ME_Radial_id_ml (3.5 + 2 * (1 : ℕ)) 0 0 1 = _); rw [show (3.5 + 2 * ((1 : ℕ) : ℝ) : ℝ) = 5.5 by norm_num] at h; exact h) (w := (7 / 2) * √(4 / 63)) (d := (2204792759 / 2500000000000000000)) (by beta_reduce; rw [vid_pl_val (by norm_num) 1 0 0 (p := (7 / 2)) (q := (4 / 63)) (by norm_num [MF_Radial_id_pl, RisingFactorial, Finset.prod_range_succ, Finset.sum_Ico_eq_sum_range, Finset.sum_range_succ, Nat.choose]) (by norm_num [RisingFactorial, Finset.prod_range_succ, Nat.factorial])] <;> norm_num [] <;> ring) (by norm_num) (by norm_num [abs_of_pos, abs_of_neg]) ?_ ?_
    · have h0 := root_bounds (q := (4 / 63)) (l := (1259881576697 / 5000000000000)) (u := (503952630679 / 2000000000000)) (by norm_num) (by norm_num) (by norm_num); linarith
    · have h0 := root_bounds (q := (4 / 63)) (l := (1259881576697 / 5000000000000)) (u := (503952630679 / 2000000000000)) (by norm_num) (by norm_num) (by norm_num); linarith
  refine all_cons ?_ ?_
  · refine tst (by have h := (id_ml_ok (lam := 1.5) (by norm_num) 2 0 0 : ME_Radial_id_ml (1.5 + 2 * (2 : ℕ)) 0 0 2 = _); rw [show (1.5 + 2 * ((2 : ℕ) : ℝ) : ℝ) = 5.5 by norm_num] at h; exact h) (w := (15 / 4) * √(16 / 945)) (d := (1219875091 / 2500000000000000000)) (by beta_reduce; rw [vid_pl_val (by norm_num) 2 0 0 (p := (15 / 4)) (q := (16 / 945)) (by norm_num [MF_Radial_id_pl, RisingFactorial, Finset.prod_range_succ, Finset.sum_Ico_eq_sum_range, Finset.sum_range_succ, Nat.choose]) (by norm_num [RisingFactorial, Finset.prod_range_succ, Nat.factorial])] <;> norm_num [] <;> ring) (by norm_num) (by norm_num [abs_of_pos, abs_of_neg]) ?_ ?_
    · have h0 := root_bounds (q := (16 / 945)) (l := (81325006079 / 625000000000)) (u := (260240019453 / 2000000000000)) (by norm_num) (by norm_num) (by norm_num); linarith
    · have h0 := root_bounds (q := (16 / 945)) (l := (81325006079 / 625000000000)) (u := (260240019453 / 2000000000000)) (by norm_num) (by norm_num) (by norm_num); linarith
  refine all_cons ?_ ?_
  · refine tst (by have h := (id_ml_ok (lam := 5.5) (by norm_num) 0 0 1 : ME_Radial_id_ml (5.5 + 2 * (0 : ℕ)) 0 1 0 = _); rw [show (5.5 + 2 * ((0 : ℕ) : ℝ) : ℝ) = 5.5 by norm_num] at h; exact h) (w := 0) (d := 0) (by beta_reduce; rw [vid_pl_val (by norm_num) 0 1 0 (p := 0) (q := (2 / 11)) (by norm_num [MF_Radial_id_pl, RisingFactorial, Finset.prod_range_succ, Finset.sum_Ico_eq_sum_range, Finset.sum_range_succ, Nat.choose]) (by norm_num [RisingFactorial, Finset.prod_range_succ, Nat.factorial])] <;> norm_num [] <;> ring) (by norm_num) (by norm_num [abs_of_pos, abs_of_neg]) ?_ ?_
    · norm_num
    · norm_num
  refine all_cons ?_ ?_
  · refine tst (by have h := (id_ml_ok (lam := 3.5) (by norm_num) 1 0 1 : ME_Radial_id_ml (3.5 + 2 * (1 : ℕ)) 0 1 1 = _); rw [show (3.5 + 2 * ((1 : ℕ) : ℝ) : ℝ) = 5.5 by norm_num] at h; exact h) (w := (-7 / 2) * √(8 / 693)) (d := (1880253583 / 5000000000000000000)) (by beta_reduce; rw [vid_pl_val (by norm_num) 1 1 0 (p := (-7 / 2)) (q := (8 / 693)) (by norm_num [MF_Radial_id_pl, RisingFactorial, Finset.prod_range_succ, Finset.sum_Ico_eq_sum_range, Finset.sum_range_succ, Nat.choose]) (by norm_num [RisingFactorial, Finset.prod_range_succ, Nat.factorial])] <;> norm_num [] <;> ring) (by norm_num) (by norm_num [abs_of_pos, abs_of_neg]) ?_ ?_
    · have h0 := root_bounds (q := (8 / 693)) (l := (10744306187 / 100000000000)) (u := (1074430618701 / 10000000000000)) (by norm_num) (by norm_num) (by norm_num); linarith
    · have h0 := root_bounds (q := (8 / 693)) (l := (10744306187 / 100000000000)) (u := (1074430618701 / 10000000000000)) (by norm_num) (by norm_num) (by norm_num); linarith
  refine all_cons ?_ ?_
  · refine tst (by have h := (id_ml_ok (lam := 1.5) (by norm_num) 2 0 1 : ME_Radial_id_ml (1.5 + 2 * (2 : ℕ)) 0 1 2 = _); rw [show (1.5 + 2 * ((2 : ℕ) : ℝ) : ℝ) = 5.5 by norm_num] at h; exact h) (w := (-15 / 2) * √(32 / 10395)) (d := (2080625947 / 5000000000000000000)) (by beta_reduce; rw [vid_pl_val (by norm_num) 2 1 0 (p := (-15 / 2)) (q := (32 / 10395)) (by norm_num [MF_Radial_id_pl, RisingFactorial, Finset.prod_range_succ, Finset.sum_Ico_eq_sum_range, Finset.sum_range_succ, Nat.choose]) (by norm_num [RisingFactorial, Finset.prod_range_succ, Nat.factorial])] <;> norm_num [] <;> ring) (by norm_num) (by norm_num [abs_of_pos, abs_of_neg]) ?_ ?_
    · have h0 := root_bounds (q := (32 / 10395)) (l := (554833585717 / 10000000000000)) (u := (277416792859 / 5000000000000)) (by norm_num) (by norm_num) (by norm_num); linarith
    · have h0 := root_bounds (q := (32 / 10395)) (l := (554833585717 / 10000000000000)) (u := (277416792859 / 5000000000000)) (by norm_num) (by norm_num) (by norm_num); linarith
  refine all_cons ?_ ?_
  · refine tst (by have h := (id_ml_ok (lam := 5.5) (by norm_num) 0 0 2 : ME_Radial_id_ml (5.5 + 2 * (0 : ℕ)) 0 2 0 = _); rw [show (5.5 + 2 * ((0 : ℕ) : ℝ) : ℝ) = 5.5 by norm_num] at h; exact h) (w := 0) (d := 0) (by beta_reduce; rw [vid_pl_val (by norm_num) 0 2 0 (p := 0) (q := (8 / 143)) (by norm_num [MF_Radial_id_pl, RisingFactorial, Finset.prod_range_succ, Finset.sum_Ico_eq_sum_range, Finset.sum_range_succ, Nat.choose]) (by norm_num [RisingFactorial, Finset.prod_range_succ, Nat.factorial])] <;> norm_num [] <;> ring) (by norm_num) (by norm_num [abs_of_pos, abs_of_neg]) ?_ ?_
    · norm_num
    · norm_num
  refine all_cons ?_ ?_
  · refine tst (by have h := (id_ml_ok (lam := 3.5) (by norm_num) 1 0 2 : ME_Radial_id_ml (3.5 + 2 * (1 : ℕ)) 0 2 1 = _); rw [show (3.5 + 2 * ((1 : ℕ) : ℝ) : ℝ) = 5.5 by norm_num] at h; exact h) (w := (7 / 2) * √(32 / 9009)) (d := (1042977031 / 5000000000000000000)) (by beta_reduce; rw [vid_pl_val (by norm_num) 1 2 0 (p := (7 / 2)) (q := (32 / 9009)) (by norm_num [MF_Radial_id_pl, RisingFactorial, Finset.prod_range_succ, Finset.sum_Ico_eq_sum_range, Finset.sum_range_succ, Nat.choose]) (by norm_num [RisingFactorial, Finset.prod_range_succ, Nat.factorial])] <;> norm_num [] <;> ring) (by norm_num) (by norm_num [abs_of_pos, abs_of_neg]) ?_ ?_
    · have h0 := root_bounds (q := (32 / 9009)) (l := (595986875023 / 10000000000000)) (u := (37249179689 / 625000000000)) (by norm_num) (by norm_num) (by norm_num); linarith
    · have h0 := root_bounds (q := (32 / 9009)) (l := (595986875023 / 10000000000000)) (u := (37249179689 / 625000000000)) (by norm_num) (by norm_num) (by norm_num); linarith
  refine all_cons ?_ ?_
  · refine tst (by have h := (id_ml_ok (lam := 1.5) (by norm_num) 2 0 2 : ME_Radial_id_ml (1.5 + 2 * (2 : ℕ)) 0 2 2 = _); rw [show (1.5 + 2 * ((2 : ℕ) : ℝ) : ℝ) = 5.5 by norm_num] at h; exact h) (w := (45 / 4) * √(128 / 135135)) (d := (3462370863 / 10000000000000000000)) (by beta_reduce; rw [vid_pl_val (by norm_num) 2 2 0 (p := (45 / 4)) (q := (128 / 135135)) (by norm_num [MF_Radial_id_pl, RisingFactorial, Finset.prod_range_succ, Finset.sum_Ico_eq_sum_range, Finset.sum_range_succ, Nat.choose]) (by norm_num [RisingFactorial, Finset.prod_range_succ, Nat.factorial])] <;> norm_num [] <;> ring) (by norm_num) (by norm_num [abs_of_pos, abs_of_neg]) ?_ ?_
    · have h0 := root_bounds (q := (128 / 135135)) (l := (307766298869 / 10000000000000)) (u := (30776629887 / 1000000000000)) (by norm_num) (by norm_num) (by norm_num); linarith
    · have h0 := root_bounds (q := (128 / 135135)) (l := (307766298869 / 10000000000000)) (u := (30776629887 / 1000000000000)) (by norm_num) (by norm_num) (by norm_num); linarith
  refine all_cons ?_ ?_
  · refine tst (by have h := (id_ml_ok (lam := 5.5) (by norm_num) 0 1 0 : ME_Radial_id_ml (5.5 + 2 * (0 : ℕ)) 1 0 0 = _); rw [show (5.5 + 2 * ((0 : ℕ) : ℝ) : ℝ) = 5.5 by norm_num] at h; exact h) (w := 0) (d := 0) (by beta_reduce; rw [vid_pl_zero (by norm_num)] <;> norm_num [] <;> ring) (by norm_num) (by norm_num [abs_of_pos, abs_of_neg]) ?_ ?_
    · norm_num
    · norm_num
  refine all_cons ?_ ?_
  · refine tst (by have h := (id_ml_ok (lam := 3.5) (by norm_num) 1 1 0 : ME_Radial_id_ml (3.5 + 2 * (1 : ℕ)) 1 0 1 = _); rw [show (3.5 + 2 * ((1 : ℕ) : ℝ) : ℝ) = 5.5 by norm_num] at h; exact h) (w := 1 * √(2 / 9)) (d := (4714045209 / 10000000000000000000)) (by beta_reduce; rw [vid_pl_val (by norm_num) 1 0 1 (p := 1) (q := (2 / 9)) (by norm_num [MF_Radial_id_pl, RisingFactorial, Finset.prod_range_succ, Finset.sum_Ico_eq_sum_range, Finset.sum_range_succ, Nat.choose]) (by norm_num [RisingFactorial, Finset.prod_range_succ, Nat.factorial])] <;> norm_num [] <;> ring) (by norm_num) (by norm_num [abs_of_pos, abs_of_neg]) ?_ ?_
    · have h0 := root_bounds (q := (2 / 9)) (l := (471404520791 / 1000000000000)) (u := (4714045207911 / 10000000000000)) (by norm_num) (by norm_num) (by norm_num); linarith
    · have h0 := root_bounds (q := (2 / 9)) (l := (471404520791 / 1000000000000)) (u := (4714045207911 / 10000000000000)) (by norm_num) (by norm_num) (by norm_num); linarith
  refine all_cons ?_ ?_
  · refine tst (by have h := (id_ml_ok (lam := 1.5) (by norm_num) 2 1 0 : ME_Radial_id_ml (1.5 + 2 * (2 : ℕ)) 1 0 2 = _); rw [show (1.5 + 2 * ((2 : ℕ) : ℝ) : ℝ) = 5.5 by norm_num] at h; exact h) (w := 5 * √(8 / 315)) (d := (796819073 / 1000000000000000000)) (by beta_reduce; rw [vid_pl_val (by norm_num) 2 0 1 (p := 5) (q := (8 / 315)) (by norm_num [MF_Radial_id_pl, RisingFactorial, Finset.prod_range_succ, Finset.sum_Ico_eq_sum_range, Finset.sum_range_succ, Nat.choose]) (by norm_num [RisingFactorial, Finset.prod_range_succ, Nat.factorial])] <;> norm_num [] <;> ring) (by norm_num) (by norm_num [abs_of_pos, abs_of_neg]) ?_ ?_
    · have h0 := root_bounds (q := (8 / 315)) (l := (1593638145779 / 10000000000000)) (u := (79681907289 / 500000000000)) (by norm_num) (by norm_num) (by norm_num); linarith
    · have h0 := root_bounds (q := (8 / 315)) (l := (1593638145779 / 10000000000000)) (u := (79681907289 / 500000000000)) (by norm_num) (by norm_num) (by norm_num); linarith
  refine all_cons ?_ ?_
  · refine tst (by have h := (id_ml_ok (lam := 5.5) (by norm_num) 0 1 1 : ME_Radial_id_ml (5.5 + 2 * (0 : ℕ)) 1 1 0 = _); rw [show (5.5 + 2 * ((0 : ℕ) : ℝ) : ℝ) = 5.5 by norm_num] at h; exact h) (w := 1) (d := (1 / 1000000000)) (by beta_reduce; rw [vid_pl_val (by norm_num) 0 1 1 (p := 1) (q := 1) (by norm_num [MF_Radial_id_pl, RisingFactorial, Finset.prod_range_succ, Finset.sum_Ico_eq_sum_range, Finset.sum_range_succ, Nat.choose]) (by norm_num [RisingFactorial, Finset.prod_range_succ, Nat.factorial])] <;> norm_num [] <;> ring) (by norm_num) (by norm_num [abs_of_pos, abs_of_neg]) ?_ ?_
    · norm_num
    · norm_num
  refine all_cons ?_ ?_
  · refine tst (by have h := (id_ml_ok (lam := 3.5) (by norm_num) 1 1 1 : ME_Radial_id_ml (3.5 + 2 * (1 : ℕ)) 1 1 1 = _); rw [show (3.5 + 2 * ((1 : ℕ) : ℝ) : ℝ) = 5.5 by norm_num] at h; exact h) (w := (7 / 2) * √(4 / 99)) (d := (1758816177 / 2500000000000000000)) (by beta_reduce; rw [vid_pl_val (by norm_num) 1 1 1 (p := (7 / 2)) (q := (4 / 99)) (by norm_num [MF_Radial_id_pl, RisingFactorial, Finset.prod_range_succ, Finset.sum_Ico_eq_sum_range, Finset.sum_range_succ, Nat.choose]) (by norm_num [RisingFactorial, Finset.prod_range_succ, Nat.factorial])] <;> norm_num [] <;> ring) (by norm_num) (by norm_num [abs_of_pos, abs_of_neg]) ?_ ?_
    · have h0 := root_bounds (q := (4 / 99)) (l := (1005037815259 / 5000000000000)) (u := (2010075630519 / 10000000000000)) (by norm_num) (by norm_num) (by norm_num); linarith
    · have h0 := root_bounds (q := (4 / 99)) (l := (1005037815259 / 5000000000000)) (u := (2010075630519 / 10000000000000)) (by norm_num) (by norm_num) (by norm_num); linarith
  refine all_cons ?_ ?_
  · refine tst (by have h := (id_ml_ok (lam := 1.5) (by norm_num) 2 1 1 : ME_Radial_id_ml (1.5 + 2 * (2 : ℕ)) 1 1 2 = _); rw [show (1.5 + 2 * ((2 : ℕ) : ℝ) : ℝ) = 5.5 by norm_num] at h; exact h) (w := (-5 / 4) * √(16 / 3465)) (d := (424705993 / 5000000000000000000)) (by beta_reduce; rw [vid_pl_val (by norm_num) 2 1 1 (p := (-5 / 4)) (q := (16 / 3465)) (by norm_num [MF_Radial_id_pl, RisingFactorial, Finset.prod_range_succ, Finset.sum_Ico_eq_sum_range, Finset.sum_range_succ, Nat.choose]) (by norm_num [RisingFactorial, Finset.prod_range_succ, Nat.factorial])] <;> norm_num [] <;> ring) (by norm_num) (by norm_num [abs_of_pos, abs_of_neg]) ?_ ?_
    · have h0 := root_bounds (q := (16 / 3465)) (l := (679529588583 / 10000000000000)) (u := (84941198573 / 1250000000000)) (by norm_num) (by norm_num) (by norm_num); linarith
    · have h0 := root_bounds (q := (16 / 3465)) (l := (679529588583 / 10000000000000)) (u := (84941198573 / 1250000000000)) (by norm_num) (by norm_num) (by norm_num); linarith
  refine all_cons ?_ ?_
  · refine tst (by have h := (id_ml_ok (lam := 5.5) (by norm_num) 0 1 2 : ME_Radial_id_ml (5.5 + 2 * (0 : ℕ)) 1 2 0 = _); rw [show (5.5 + 2 * ((0 : ℕ) : ℝ) : ℝ) = 5.5 by norm_num] at h; exact h) (w := 0) (d := 0) (by beta_reduce; rw [vid_pl_val (by norm_num) 0 2 1 (p := 0) (q := (4 / 13)) (by norm_num [MF_Radial_id_pl, RisingFactorial, Finset.prod_range_succ, Finset.sum_Ico_eq_sum_range, Finset.sum_range_succ, Nat.choose]) (by norm_num [RisingFactorial, Finset.prod_range_succ, Nat.factorial])] <;> norm_num [] <;> ring) (by norm_num) (by norm_num [abs_of_pos, abs_of_neg]) ?_ ?_
    · norm_num
    · norm_num
  refine all_cons ?_ ?_
  · refine tst (by have h := (id_ml_ok (lam := 3.5) (by norm_num) 1 1 2 : ME_Radial_id_ml (3.5 + 2 * (1 : ℕ)) 1 2 1 = _); rw [show (3.5 + 2 * ((1 : ℕ) : ℝ) : ℝ) = 5.5 by norm_num] at h; exact h) (w := (-7 / 2) * √(16 / 1287)) (d := (1951231357 / 5000000000000000000)) (by beta_reduce; rw [vid_pl_val (by norm_num) 1 2 1 (p := (-7 / 2)) (q := (16 / 1287)) (by norm_num [MF_Radial_id_pl, RisingFactorial, Finset.prod_range_succ, Finset.sum_Ico_eq_sum_range, Finset.sum_range_succ, Nat.choose]) (by norm_num [RisingFactorial, Finset.prod_range_succ, Nat.factorial])] <;> norm_num [] <;> ring) (by norm_num) (by norm_num [abs_of_pos, abs_of_neg]) ?_ ?_
    · have h0 := root_bounds (q := (16 / 1287)) (l := (278747336669 / 2500000000000)) (u := (1114989346677 / 10000000000000)) (by norm_num) (by norm_num) (by norm_num); linarith
    · have h0 := root_bounds (q := (16 / 1287)) (l := (278747336669 / 2500000000000)) (u := (1114989346677 / 10000000000000)) (by norm_num) (by norm_num) (by norm_num); linarith
  refine all_cons ?_ ?_
  · refine tst (by have h := (id_ml_ok (lam := 1.5) (by norm_num) 2 1 2 : ME_Radial_id_ml (1.5 + 2 * (2 : ℕ)) 1 2 2 = _); rw [show (1.5 + 2 * ((2 : ℕ) : ℝ) : ℝ) = 5.5 by norm_num] at h; exact h) (w := (-5 / 2) * √(64 / 45045)) (d := (94233799 / 1000000000000000000)) (by beta_reduce; rw [vid_pl_val (by norm_num) 2 2 1 (p := (-5 / 2)) (q := (64 / 45045)) (by norm_num [MF_Radial_id_pl, RisingFactorial, Finset.prod_range_succ, Finset.sum_Ico_eq_sum_range, Finset.sum_range_succ, Nat.choose]) (by norm_num [RisingFactorial, Finset.prod_range_succ, Nat.factorial])] <;> norm_num [] <;> ring) (by norm_num) (by norm_num [abs_of_pos, abs_of_neg]) ?_ ?_
    · have h0 := root_bounds (q := (64 / 45045)) (l := (11779224879 / 312500000000)) (u := (376935196129 / 10000000000000)) (by norm_num) (by norm_num) (by norm_num); linarith
    · have h0 := root_bounds (q := (64 / 45045)) (l := (11779224879 / 312500000000)) (u := (376935196129 / 10000000000000)) (by norm_num) (by norm_num) (by norm_num); linarith
  refine all_cons ?_ ?_
  · refine tst (by have h := (id_ml_ok (lam := 5.5) (by norm_num) 0 2 0 : ME_Radial_id_ml (5.5 + 2 * (0 : ℕ)) 2 0 0 = _); rw [show (5.5 + 2 * ((0 : ℕ) : ℝ) : ℝ) = 5.5 by norm_num] at h; exact h) (w := 0) (d := 0) (by beta_reduce; rw [vid_pl_zero (by norm_num)] <;> norm_num [] <;> ring) (by norm_num) (by norm_num [abs_of_pos, abs_of_neg]) ?_ ?_
    · norm_num
    · norm_num
  refine all_cons ?_ ?_
  · refine tst (by have h := (id_ml_ok (lam := 3.5) (by norm_num) 1 2 0 : ME_Radial_id_ml (3.5 + 2 * (1 : ℕ)) 2 0 1 = _); rw [show (3.5 + 2 * ((1 : ℕ) : ℝ) : ℝ) = 5.5 by norm_num] at h; exact h) (w := 0) (d := 0) (by beta_reduce; rw [vid_pl_zero (by norm_num)] <;> norm_num [] <;> ring) (by norm_num) (by norm_num [abs_of_pos, abs_of_neg]) ?_ ?_
    · norm_num
    · norm_num
  refine all_cons ?_ ?_
  · refine tst (by have h := (id_ml_ok (lam := 1.5) (by norm_num) 2 2 0 : ME_Radial_id_ml (1.5 + 2 * (2 : ℕ)) 2 0 2 = _); rw [show (1.5 + 2 * ((2 : ℕ) : ℝ) : ℝ) = 5.5 by norm_num] at h; exact h) (w := 2 * √(2 / 63)) (d := (1781741613 / 5000000000000000000)) (by beta_reduce; rw [vid_pl_val (by norm_num) 2 0 2 (p := 2) (q := (2 / 63)) (by norm_num [MF_Radial_id_pl, RisingFactorial, Finset.prod_range_succ, Finset.sum_Ico_eq_sum_range, Finset.sum_range_succ, Nat.choose]) (by norm_num [RisingFactorial, Finset.prod_range_succ, Nat.factorial])] <;> norm_num [] <;> ring) (by norm_num) (by norm_num [abs_of_pos, abs_of_neg]) ?_ ?_
    · have h0 := root_bounds (q := (2 / 63)) (l := (1781741612749 / 10000000000000)) (u := (7126966451 / 40000000000)) (by norm_num) (by norm_num) (by norm_num); linarith
    · have h0 := root_bounds (q := (2 / 63)) (l := (1781741612749 / 10000000000000)) (u := (7126966451 / 40000000000)) (by norm_num) (by norm_num) (by norm_num); linarith
  refine all_cons ?_ ?_
  · refine tst (by have h := (id_ml_ok (lam := 5.5) (by norm_num) 0 2 1 : ME_Radial_id_ml (5.5 + 2 * (0 : ℕ)) 2 1 0 = _); rw [show (5.5 + 2 * ((0 : ℕ) : ℝ) : ℝ) = 5.5 by norm_num] at h; exact h) (w := 0) (d := 0) (by beta_reduce; rw [vid_pl_zero (by norm_num)] <;> norm_num [] <;> ring) (by norm_num) (by norm_num [abs_of_pos, abs_of_neg]) ?_ ?_
    · norm_num
    · norm_num
  refine all_cons ?_ ?_
  · refine tst (by have h := (id_ml_ok (lam := 3.5) (by norm_num) 1 2 1 : ME_Radial_id_ml (3.5 + 2 * (1 : ℕ)) 2 1 1 = _); rw [show (3.5 + 2 * ((1 : ℕ) : ℝ) : ℝ) = 5.5 by norm_num] at h; exact h) (w := 2 * √(1 / 11)) (d := (1507556723 / 2500000000000000000)) (by beta_reduce; rw [vid_pl_val (by norm_num) 1 1 2 (p := 2) (q := (1 / 11)) (by norm_num [MF_Radial_id_pl, RisingFactorial, Finset.prod_range_succ, Finset.sum_Ico_eq_sum_range, Finset.sum_range_succ, Nat.choose]) (by norm_num [RisingFactorial, Finset.prod_range_succ, Nat.factorial])] <;> norm_num [] <;> ring) (by norm_num) (by norm_num [abs_of_pos, abs_of_neg]) ?_ ?_
    · have h0 := root_bounds (q := (1 / 11)) (l := (3015113445777 / 10000000000000)) (u := (1507556722889 / 5000000000000)) (by norm_num) (by norm_num) (by norm_num); linarith
    · have h0 := root_bounds (q := (1 / 11)) (l := (3015113445777 / 10000000000000)) (u := (1507556722889 / 5000000000000)) (by norm_num) (by norm_num) (by norm_num); linarith
  refine all_cons ?_ ?_
  · refine tst (by have h := (id_ml_ok (lam := 1.5) (by norm_num) 2 2 1 : ME_Radial_id_ml (1.5 + 2 * (2 : ℕ)) 2 1 2 = _); rw [show (1.5 + 2 * ((2 : ℕ) : ℝ) : ℝ) = 5.5 by norm_num] at h; exact h) (w := 10 * √(4 / 693)) (d := (1899342941 / 2500000000000000000)) (by beta_reduce; rw [vid_pl_val (by norm_num) 2 1 2 (p := 10) (q := (4 / 693)) (by norm_num [MF_Radial_id_pl, RisingFactorial, Finset.prod_range_succ, Finset.sum_Ico_eq_sum_range, Finset.sum_range_succ, Nat.choose]) (by norm_num [RisingFactorial, Finset.prod_range_succ, Nat.factorial])] <;> norm_num [] <;> ring) (by norm_num) (by norm_num [abs_of_pos, abs_of_neg]) ?_ ?_
    · have h0 := root_bounds (q := (4 / 693)) (l := (759737176397 / 10000000000000)) (u := (379868588199 / 5000000000000)) (by norm_num) (by norm_num) (by norm_num); linarith
    · have h0 := root_bounds (q := (4 / 693)) (l := (759737176397 / 10000000000000)) (u := (379868588199 / 5000000000000)) (by norm_num) (by norm_num) (by norm_num); linarith
  refine all_cons ?_ ?_
  · refine tst (by have h := (id_ml_ok (lam := 5.5) (by norm_num) 0 2 2 : ME_Radial_id_ml (5.5 + 2 * (0 : ℕ)) 2 2 0 = _); rw [show (5.5 + 2 * ((0 : ℕ) : ℝ) : ℝ) = 5.5 by norm_num] at h; exact h) (w := 1) (d := (1 / 1000000000)) (by beta_reduce; rw [vid_pl_val (by norm_num) 0 2 2 (p := 1) (q := 1) (by norm_num [MF_Radial_id_pl, RisingFactorial, Finset.prod_range_succ, Finset.sum_Ico_eq_sum_range, Finset.sum_range_succ, Nat.choose]) (by norm_num [RisingFactorial, Finset.prod_range_succ, Nat.factorial])] <;> norm_num [] <;> ring) (by norm_num) (by norm_num [abs_of_pos, abs_of_neg]) ?_ ?_
    · norm_num
    · norm_num
  refine all_cons ?_ ?_
  · refine tst (by have h := (id_ml_ok (lam := 3.5) (by norm_num) 1 2 2 : ME_Radial_id_ml (3.5 + 2 * (1 : ℕ)) 2 2 1 = _); rw [show (3.5 + 2 * ((1 : ℕ) : ℝ) : ℝ) = 5.5 by norm_num] at h; exact h) (w := (7 / 2) * √(4 / 143)) (d := (585369407 / 1000000000000000000)) (by beta_reduce; rw [vid_pl_val (by norm_num) 1 2 2 (p := (7 / 2)) (q := (4 / 143)) (by norm_num [MF_Radial_id_pl, RisingFactorial, Finset.prod_range_succ, Finset.sum_Ico_eq_sum_range, Finset.sum_range_succ, Nat.choose]) (by norm_num [RisingFactorial, Finset.prod_range_succ, Nat.factorial])] <;> norm_num [] <;> ring) (by norm_num) (by norm_num [abs_of_pos, abs_of_neg]) ?_ ?_
    · have h0 := root_bounds (q := (4 / 143)) (l := (836242010007 / 5000000000000)) (u := (334496804003 / 2000000000000)) (by norm_num) (by norm_num) (by norm_num); linarith
    · have h0 := root_bounds (q := (4 / 143)) (l := (836242010007 / 5000000000000)) (u := (334496804003 / 2000000000000)) (by norm_num) (by norm_num) (by norm_num); linarith
  refine all_cons ?_ ?_
  · refine tst (by have h := (id_ml_ok (lam := 1.5) (by norm_num) 2 2 2 : ME_Radial_id_ml (1.5 + 2 * (2 : ℕ)) 2 2 2 = _); rw [show (1.5 + 2 * ((2 : ℕ) : ℝ) : ℝ) = 5.5 by norm_num] at h; exact h) (w := (-25 / 4) * √(16 / 9009)) (d := (526782951 / 2000000000000000000)) (by beta_reduce; rw [vid_pl_val (by norm_num) 2 2 2 (p := (-25 / 4)) (q := (16 / 9009)) (by norm_num [MF_Radial_id_pl, RisingFactorial, Finset.prod_range_succ, Finset.sum_Ico_eq_sum_range, Finset.sum_range_succ, Nat.choose]) (by norm_num [RisingFactorial, Finset.prod_range_succ, Nat.factorial])] <;> norm_num [] <;> ring) (by norm_num) (by norm_num [abs_of_pos, abs_of_neg]) ?_ ?_
    · have h0 := root_bounds (q := (16 / 9009)) (l := (421426360827 / 10000000000000)) (u := (105356590207 / 2500000000000)) (by norm_num) (by norm_num) (by norm_num); linarith
    · have h0 := root_bounds (q := (16 / 9009)) (l := (421426360827 / 10000000000000)) (u := (105356590207 / 2500000000000)) (by norm_num) (by norm_num) (by norm_num); linarith
  exact all_nil

/-- `MF_Radial_id_poly`, as polynomials. -/
theorem test_id_poly (lam : ℝ) : ∀ t ∈ tests_id_poly lam, MF_Radial_id_poly lam t.1 t.2.1 t.2.2.1 = .ok t.2.2.2 := by
  refine all_cons (poly_ok (by norm_num) ?_) ?_
  · norm_num [MF_Radial_id_pl, RisingFactorial, Finset.prod_range_succ, Finset.sum_Ico_eq_sum_range, Finset.sum_range_succ, Nat.choose] <;> ring
  refine all_cons (poly_ok (by norm_num) ?_) ?_
  · norm_num [MF_Radial_id_pl, RisingFactorial, Finset.prod_range_succ, Finset.sum_Ico_eq_sum_range, Finset.sum_range_succ, Nat.choose] <;> ring
  refine all_cons (poly_ok (by norm_num) ?_) ?_
  · norm_num [MF_Radial_id_pl, RisingFactorial, Finset.prod_range_succ, Finset.sum_Ico_eq_sum_range, Finset.sum_range_succ, Nat.choose] <;> ring
  refine all_cons (poly_ok (by norm_num) ?_) ?_
  · norm_num [MF_Radial_id_pl, RisingFactorial, Finset.prod_range_succ, Finset.sum_Ico_eq_sum_range, Finset.sum_range_succ, Nat.choose] <;> ring
  refine all_cons (poly_ok (by norm_num) ?_) ?_
  · norm_num [MF_Radial_id_pl, RisingFactorial, Finset.prod_range_succ, Finset.sum_Ico_eq_sum_range, Finset.sum_range_succ, Nat.choose] <;> ring
  refine all_cons (poly_ok (by norm_num) ?_) ?_
  · norm_num [MF_Radial_id_pl, RisingFactorial, Finset.prod_range_succ, Finset.sum_Ico_eq_sum_range, Finset.sum_range_succ, Nat.choose] <;> ring
  refine all_cons (poly_ok (by norm_num) ?_) ?_
  · norm_num [MF_Radial_id_pl, RisingFactorial, Finset.prod_range_succ, Finset.sum_Ico_eq_sum_range, Finset.sum_range_succ, Nat.choose] <;> ring
  refine all_cons (poly_ok (by norm_num) ?_) ?_
  · norm_num [MF_Radial_id_pl, RisingFactorial, Finset.prod_range_succ, Finset.sum_Ico_eq_sum_range, Finset.sum_range_succ, Nat.choose] <;> ring
  refine all_cons (poly_ok (by norm_num) ?_) ?_
  · norm_num [MF_Radial_id_pl, RisingFactorial, Finset.prod_range_succ, Finset.sum_Ico_eq_sum_range, Finset.sum_range_succ, Nat.choose] <;> ring
  refine all_cons (poly_ok (by norm_num) ?_) ?_
  · norm_num [MF_Radial_id_pl, RisingFactorial, Finset.prod_range_succ, Finset.sum_Ico_eq_sum_range, Finset.sum_range_succ, Nat.choose] <;> ring
  refine all_cons (poly_ok (by norm_num) ?_) ?_
  · norm_num [MF_Radial_id_pl, RisingFactorial, Finset.prod_range_succ, Finset.sum_Ico_eq_sum_range, Finset.sum_range_succ, Nat.choose] <;> ring
  refine all_cons (poly_ok (by norm_num) ?_) ?_
  · norm_num [MF_Radial_id_pl, RisingFactorial, Finset.prod_range_succ, Finset.sum_Ico_eq_sum_range, Finset.sum_range_succ, Nat.choose] <;> ring
  refine all_cons (poly_ok (by norm_num) ?_) ?_
  · norm_num [MF_Radial_id_pl, RisingFactorial, Finset.prod_range_succ, Finset.sum_Ico_eq_sum_range, Finset.sum_range_succ, Nat.choose] <;> ring
  refine all_cons (poly_ok (by norm_num) ?_) ?_
  · norm_num [MF_Radial_id_pl, RisingFactorial, Finset.prod_range_succ, Finset.sum_Ico_eq_sum_range, Finset.sum_range_succ, Nat.choose] <;> ring
  refine all_cons (poly_ok (by norm_num) ?_) ?_
  · norm_num [MF_Radial_id_pl, RisingFactorial, Finset.prod_range_succ, Finset.sum_Ico_eq_sum_range, Finset.sum_range_succ, Nat.choose] <;> ring
  refine all_cons (poly_ok (by norm_num) ?_) ?_
  · norm_num [MF_Radial_id_pl, RisingFactorial, Finset.prod_range_succ, Finset.sum_Ico_eq_sum_range, Finset.sum_range_succ, Nat.choose] <;> ring
  refine all_cons (poly_ok (by norm_num) ?_) ?_
  · norm_num [MF_Radial_id_pl, RisingFactorial, Finset.prod_range_succ, Finset.sum_Ico_eq_sum_range, Finset.sum_range_succ, Nat.choose] <;> ring
  refine all_cons (poly_ok (by norm_num) ?_) ?_
  · norm_num [MF_Radial_id_pl, RisingFactorial, Finset.prod_range_succ, Finset.sum_Ico_eq_sum_range, Finset.sum_range_succ, Nat.choose] <;> ring
  refine all_cons (poly_ok (by norm_num) ?_) ?_
  · norm_num [MF_Radial_id_pl, RisingFactorial, Finset.prod_range_succ, Finset.sum_Ico_eq_sum_range, Finset.sum_range_succ, Nat.choose] <;> ring
  refine all_cons (poly_ok (by norm_num) ?_) ?_
  · norm_num [MF_Radial_id_pl, RisingFactorial, Finset.prod_range_succ, Finset.sum_Ico_eq_sum_range, Finset.sum_range_succ, Nat.choose] <;> ring
  refine all_cons (poly_ok (by norm_num) ?_) ?_
  · norm_num [MF_Radial_id_pl, RisingFactorial, Finset.prod_range_succ, Finset.sum_Ico_eq_sum_range, Finset.sum_range_succ, Nat.choose] <;> ring
  refine all_cons (poly_ok (by norm_num) ?_) ?_
  · norm_num [MF_Radial_id_pl, RisingFactorial, Finset.prod_range_succ, Finset.sum_Ico_eq_sum_range, Finset.sum_range_succ, Nat.choose] <;> ring
  refine all_cons (poly_ok (by norm_num) ?_) ?_
  · norm_num [MF_Radial_id_pl, RisingFactorial, Finset.prod_range_succ, Finset.sum_Ico_eq_sum_range, Finset.sum_range_succ, Nat.choose] <;> ring
  refine all_cons (poly_ok (by norm_num) ?_) ?_
  · norm_num [MF_Radial_id_pl, RisingFactorial, Finset.prod_range_succ, Finset.sum_Ico_eq_sum_range, Finset.sum_range_succ, Nat.choose] <;> ring
  refine all_cons (poly_ok (by norm_num) ?_) ?_
  · norm_num [MF_Radial_id_pl, RisingFactorial, Finset.prod_range_succ, Finset.sum_Ico_eq_sum_range, Finset.sum_range_succ, Nat.choose] <;> ring
  refine all_cons (poly_ok (by norm_num) ?_) ?_
  · norm_num [MF_Radial_id_pl, RisingFactorial, Finset.prod_range_succ, Finset.sum_Ico_eq_sum_range, Finset.sum_range_succ, Nat.choose] <;> ring
  refine all_cons (poly_ok (by norm_num) ?_) ?_
  · norm_num [MF_Radial_id_pl, RisingFactorial, Finset.prod_range_succ, Finset.sum_Ico_eq_sum_range, Finset.sum_range_succ, Nat.choose] <;> ring
  refine all_cons (poly_ok (by norm_num) ?_) ?_
  · norm_num [MF_Radial_id_pl, RisingFactorial, Finset.prod_range_succ, Finset.sum_Ico_eq_sum_range, Finset.sum_range_succ, Nat.choose] <;> ring
  refine all_cons (poly_ok (by norm_num) ?_) ?_
  · norm_num [MF_Radial_id_pl, RisingFactorial, Finset.prod_range_succ, Finset.sum_Ico_eq_sum_range, Finset.sum_range_succ, Nat.choose] <;> ring
  refine all_cons (poly_ok (by norm_num) ?_) ?_
  · norm_num [MF_Radial_id_pl, RisingFactorial, Finset.prod_range_succ, Finset.sum_Ico_eq_sum_range, Finset.sum_range_succ, Nat.choose] <;> ring
  refine all_cons (poly_ok (by norm_num) ?_) ?_
  · norm_num [MF_Radial_id_pl, RisingFactorial, Finset.prod_range_succ, Finset.sum_Ico_eq_sum_range, Finset.sum_range_succ, Nat.choose] <;> ring
  refine all_cons (poly_ok (by norm_num) ?_) ?_
  · norm_num [MF_Radial_id_pl, RisingFactorial, Finset.prod_range_succ, Finset.sum_Ico_eq_sum_range, Finset.sum_range_succ, Nat.choose] <;> ring
  refine all_cons (poly_ok (by norm_num) ?_) ?_
  · norm_num [MF_Radial_id_pl, RisingFactorial, Finset.prod_range_succ, Finset.sum_Ico_eq_sum_range, Finset.sum_range_succ, Nat.choose] <;> ring
  refine all_cons (poly_ok (by norm_num) ?_) ?_
  · norm_num [MF_Radial_id_pl, RisingFactorial, Finset.prod_range_succ, Finset.sum_Ico_eq_sum_range, Finset.sum_range_succ, Nat.choose] <;> ring
  refine all_cons (poly_ok (by norm_num) ?_) ?_
  · norm_num [MF_Radial_id_pl, RisingFactorial, Finset.prod_range_succ, Finset.sum_Ico_eq_sum_range, Finset.sum_range_succ, Nat.choose] <;> ring
  refine all_cons (poly_ok (by norm_num) ?_) ?_
  · norm_num [MF_Radial_id_pl, RisingFactorial, Finset.prod_range_succ, Finset.sum_Ico_eq_sum_range, Finset.sum_range_succ, Nat.choose] <;> ring
  refine all_cons (poly_ok (by norm_num) ?_) ?_
  · norm_num [MF_Radial_id_pl, RisingFactorial, Finset.prod_range_succ, Finset.sum_Ico_eq_sum_range, Finset.sum_range_succ, Nat.choose] <;> ring
  refine all_cons (poly_ok (by norm_num) ?_) ?_
  · norm_num [MF_Radial_id_pl, RisingFactorial, Finset.prod_range_succ, Finset.sum_Ico_eq_sum_range, Finset.sum_range_succ, Nat.choose] <;> ring
  refine all_cons (poly_ok (by norm_num) ?_) ?_
  · norm_num [MF_Radial_id_pl, RisingFactorial, Finset.prod_range_succ, Finset.sum_Ico_eq_sum_range, Finset.sum_range_succ, Nat.choose] <;> ring
  refine all_cons (poly_ok (by norm_num) ?_) ?_
  · norm_num [MF_Radial_id_pl, RisingFactorial, Finset.prod_range_succ, Finset.sum_Ico_eq_sum_range, Finset.sum_range_succ, Nat.choose] <;> ring
  refine all_cons (poly_ok (by norm_num) ?_) ?_
  · norm_num [MF_Radial_id_pl, RisingFactorial, Finset.prod_range_succ, Finset.sum_Ico_eq_sum_range, Finset.sum_range_succ, Nat.choose] <;> ring
  refine all_cons (poly_ok (by norm_num) ?_) ?_
  · norm_num [MF_Radial_id_pl, RisingFactorial, Finset.prod_range_succ, Finset.sum_Ico_eq_sum_range, Finset.sum_range_succ, Nat.choose] <;> ring
  refine all_cons (poly_ok (by norm_num) ?_) ?_
  · norm_num [MF_Radial_id_pl, RisingFactorial, Finset.prod_range_succ, Finset.sum_Ico_eq_sum_range, Finset.sum_range_succ, Nat.choose] <;> ring
  refine all_cons (poly_ok (by norm_num) ?_) ?_
  · norm_num [MF_Radial_id_pl, RisingFactorial, Finset.prod_range_succ, Finset.sum_Ico_eq_sum_range, Finset.sum_range_succ, Nat.choose] <;> ring
  refine all_cons (poly_ok (by norm_num) ?_) ?_
  · norm_num [MF_Radial_id_pl, RisingFactorial, Finset.prod_range_succ, Finset.sum_Ico_eq_sum_range, Finset.sum_range_succ, Nat.choose] <;> ring
  refine all_cons (poly_ok (by norm_num) ?_) ?_
  · norm_num [MF_Radial_id_pl, RisingFactorial, Finset.prod_range_succ, Finset.sum_Ico_eq_sum_range, Finset.sum_range_succ, Nat.choose] <;> ring
  refine all_cons (poly_ok (by norm_num) ?_) ?_
  · norm_num [MF_Radial_id_pl, RisingFactorial, Finset.prod_range_succ, Finset.sum_Ico_eq_sum_range, Finset.sum_range_succ, Nat.choose] <;> ring
  refine all_cons (poly_ok (by norm_num) ?_) ?_
  · norm_num [MF_Radial_id_pl, RisingFactorial, Finset.prod_range_succ, Finset.sum_Ico_eq_sum_range, Finset.sum_range_succ, Nat.choose] <;> ring
  refine all_cons (poly_ok (by norm_num) ?_) ?_
  · norm_num [MF_Radial_id_pl, RisingFactorial, Finset.prod_range_succ, Finset.sum_Ico_eq_sum_range, Finset.sum_range_succ, Nat.choose] <;> ring
  refine all_cons (poly_ok (by norm_num) ?_) ?_
  · norm_num [MF_Radial_id_pl, RisingFactorial, Finset.prod_range_succ, Finset.sum_Ico_eq_sum_range, Finset.sum_range_succ, Nat.choose] <;> ring
  refine all_cons (poly_ok (by norm_num) ?_) ?_
  · norm_num [MF_Radial_id_pl, RisingFactorial, Finset.prod_range_succ, Finset.sum_Ico_eq_sum_range, Finset.sum_range_succ, Nat.choose] <;> ring
  refine all_cons (poly_ok (by norm_num) ?_) ?_
  · norm_num [MF_Radial_id_pl, RisingFactorial, Finset.prod_range_succ, Finset.sum_Ico_eq_sum_range, Finset.sum_range_succ, Nat.choose] <;> ring
  refine all_cons (poly_ok (by norm_num) ?_) ?_
  · norm_num [MF_Radial_id_pl, RisingFactorial, Finset.prod_range_succ, Finset.sum_Ico_eq_sum_range, Finset.sum_range_succ, Nat.choose] <;> ring
  refine all_cons (poly_ok (by norm_num) ?_) ?_
  · norm_num [MF_Radial_id_pl, RisingFactorial, Finset.prod_range_succ, Finset.sum_Ico_eq_sum_range, Finset.sum_range_succ, Nat.choose] <;> ring
  refine all_cons (poly_ok (by norm_num) ?_) ?_
  · norm_num [MF_Radial_id_pl, RisingFactorial, Finset.prod_range_succ, Finset.sum_Ico_eq_sum_range, Finset.sum_range_succ, Nat.choose] <;> ring
  refine all_cons (poly_ok (by norm_num) ?_) ?_
  · norm_num [MF_Radial_id_pl, RisingFactorial, Finset.prod_range_succ, Finset.sum_Ico_eq_sum_range, Finset.sum_range_succ, Nat.choose] <;> ring
  refine all_cons (poly_ok (by norm_num) ?_) ?_
  · norm_num [MF_Radial_id_pl, RisingFactorial, Finset.prod_range_succ, Finset.sum_Ico_eq_sum_range, Finset.sum_range_succ, Nat.choose] <;> ring
  refine all_cons (poly_ok (by norm_num) ?_) ?_
  · norm_num [MF_Radial_id_pl, RisingFactorial, Finset.prod_range_succ, Finset.sum_Ico_eq_sum_range, Finset.sum_range_succ, Nat.choose] <;> ring
  refine all_cons (poly_ok (by norm_num) ?_) ?_
  · norm_num [MF_Radial_id_pl, RisingFactorial, Finset.prod_range_succ, Finset.sum_Ico_eq_sum_range, Finset.sum_range_succ, Nat.choose] <;> ring
  refine all_cons (poly_ok (by norm_num) ?_) ?_
  · norm_num [MF_Radial_id_pl, RisingFactorial, Finset.prod_range_succ, Finset.sum_Ico_eq_sum_range, Finset.sum_range_succ, Nat.choose] <;> ring
  exact all_nil

/-- `MF_Radial_id_pl`. -/
theorem test_mf_id_pl : ∀ t ∈ tests_mf_id_pl, IsClose 1e-7 0 (MF_Radial_id_pl 5.5 t.1 t.2.1 t.2.2.1) t.2.2.2 := by
  refine all_cons ?_ ?_
  · exact isClose_val (v := 1) (d := (1 / 10000000)) (by norm_num [MF_Radial_id_pl, RisingFactorial, Finset.prod_range_succ, Finset.sum_Ico_eq_sum_range, Finset.sum_range_succ, Nat.choose]) (by norm_num) (by norm_num [abs_of_pos, abs_of_neg]) (by norm_num) (by norm_num)
  refine all_cons ?_ ?_
  · exact isClose_val (v := 0) (d := 0) (by norm_num [MF_Radial_id_pl, RisingFactorial, Finset.prod_range_succ, Finset.sum_Ico_eq_sum_range, Finset.sum_range_succ, Nat.choose]) (by norm_num) (by norm_num [abs_of_pos, abs_of_neg]) (by norm_num) (by norm_num)
  refine all_cons ?_ ?_
  · exact isClose_val (v := 1) (d := (1 / 10000000)) (by norm_num [MF_Radial_id_pl, RisingFactorial, Finset.prod_range_succ, Finset.sum_Ico_eq_sum_range, Finset.sum_range_succ, Nat.choose]) (by norm_num) (by norm_num [abs_of_pos, abs_of_neg]) (by norm_num) (by norm_num)
  refine all_cons ?_ ?_
  · exact isClose_val (v := 0) (d := 0) (by norm_num [MF_Radial_id_pl, RisingFactorial, Finset.prod_range_succ, Finset.sum_Ico_eq_sum_range, Finset.sum_range_succ, Nat.choose]) (by norm_num) (by norm_num [abs_of_pos, abs_of_neg]) (by norm_num) (by norm_num)
  refine all_cons ?_ ?_
  · exact isClose_val (v := 0) (d := 0) (by norm_num [MF_Radial_id_pl, RisingFactorial, Finset.prod_range_succ, Finset.sum_Ico_eq_sum_range, Finset.sum_range_succ, Nat.choose]) (by norm_num) (by norm_num [abs_of_pos, abs_of_neg]) (by norm_num) (by norm_num)
  refine all_cons ?_ ?_
  · exact isClose_val (v := 1) (d := (1 / 10000000)) (by norm_num [MF_Radial_id_pl, RisingFactorial, Finset.prod_range_succ, Finset.sum_Ico_eq_sum_range, Finset.sum_range_succ, Nat.choose]) (by norm_num) (by norm_num [abs_of_pos, abs_of_neg]) (by norm_num) (by norm_num)
  refine all_cons ?_ ?_
  · exact isClose_val (v := 0) (d := 0) (by norm_num [MF_Radial_id_pl, RisingFactorial, Finset.prod_range_succ, Finset.sum_Ico_eq_sum_range, Finset.sum_range_succ, Nat.choose]) (by norm_num) (by norm_num [abs_of_pos, abs_of_neg]) (by norm_num) (by norm_num)
  refine all_cons ?_ ?_
  · exact isClose_val (v := 0) (d := 0) (by norm_num [MF_Radial_id_pl, RisingFactorial, Finset.prod_range_succ, Finset.sum_Ico_eq_sum_range, Finset.sum_range_succ, Nat.choose]) (by norm_num) (by norm_num [abs_of_pos, abs_of_neg]) (by norm_num) (by norm_num)
  refine all_cons ?_ ?_
  · exact isClose_val (v := 0) (d := 0) (by norm_num [MF_Radial_id_pl, RisingFactorial, Finset.prod_range_succ, Finset.sum_Ico_eq_sum_range, Finset.sum_range_succ, Nat.choose]) (by norm_num) (by norm_num [abs_of_pos, abs_of_neg]) (by norm_num) (by norm_num)
  refine all_cons ?_ ?_
  · exact isClose_val (v := 1) (d := (1 / 10000000)) (by norm_num [MF_Radial_id_pl, RisingFactorial, Finset.prod_range_succ, Finset.sum_Ico_eq_sum_range, Finset.sum_range_succ, Nat.choose]) (by norm_num) (by norm_num [abs_of_pos, abs_of_neg]) (by norm_num) (by norm_num)
  refine all_cons ?_ ?_
  · exact isClose_val (v := 0) (d := 0) (by norm_num [MF_Radial_id_pl, RisingFactorial, Finset.prod_range_succ, Finset.sum_Ico_eq_sum_range, Finset.sum_range_succ, Nat.choose]) (by norm_num) (by norm_num [abs_of_pos, abs_of_neg]) (by norm_num) (by norm_num)
  refine all_cons ?_ ?_
  · exact isClose_val (v := 0) (d := 0) (by norm_num [MF_Radial_id_pl, RisingFactorial, Finset.prod_range_succ, Finset.sum_Ico_eq_sum_range, Finset.sum_range_succ, Nat.choose]) (by norm_num) (by norm_num [abs_of_pos, abs_of_neg]) (by norm_num) (by norm_num)
  refine all_cons ?_ ?_
  · exact isClose_val (v := 0) (d := 0) (by norm_num [MF_Radial_id_pl, RisingFactorial, Finset.prod_range_succ, Finset.sum_Ico_eq_sum_range, Finset.sum_range_succ, Nat.choose]) (by norm_num) (by norm_num [abs_of_pos, abs_of_neg]) (by norm_num) (by norm_num)
  refine all_cons ?_ ?_
  · exact isClose_val (v := 0) (d := 0) (by norm_num [MF_Radial_id_pl, RisingFactorial, Finset.prod_range_succ, Finset.sum_Ico_eq_sum_range, Finset.sum_range_succ, Nat.choose]) (by norm_num) (by norm_num [abs_of_pos, abs_of_neg]) (by norm_num) (by norm_num)
  refine all_cons ?_ ?_
  · exact isClose_val (v := 1) (d := (1 / 10000000)) (by norm_num [MF_Radial_id_pl, RisingFactorial, Finset.prod_range_succ, Finset.sum_Ico_eq_sum_range, Finset.sum_range_succ, Nat.choose]) (by norm_num) (by norm_num [abs_of_pos, abs_of_neg]) (by norm_num) (by norm_num)
  refine all_cons ?_ ?_
  · exact isClose_val (v := (11 / 2)) (d := (5500000001 / 10000000000000000)) (by norm_num [MF_Radial_id_pl, RisingFactorial, Finset.prod_range_succ, Finset.sum_Ico_eq_sum_range, Finset.sum_range_succ, Nat.choose]) (by norm_num) (by norm_num [abs_of_pos, abs_of_neg]) (by norm_num) (by norm_num)
  refine all_cons ?_ ?_
  · exact isClose_val (v := 1) (d := (1 / 10000000)) (by norm_num [MF_Radial_id_pl, RisingFactorial, Finset.prod_range_succ, Finset.sum_Ico_eq_sum_range, Finset.sum_range_succ, Nat.choose]) (by norm_num) (by norm_num [abs_of_pos, abs_of_neg]) (by norm_num) (by norm_num)
  refine all_cons ?_ ?_
  · exact isClose_val (v := (-11 / 2)) (d := (5499999997 / 10000000000000000)) (by norm_num [MF_Radial_id_pl, RisingFactorial, Finset.prod_range_succ, Finset.sum_Ico_eq_sum_range, Finset.sum_range_succ, Nat.choose]) (by norm_num) (by norm_num [abs_of_pos, abs_of_neg]) (by norm_num) (by norm_num)
  refine all_cons ?_ ?_
  · exact isClose_val (v := (11 / 2)) (d := (5499999997 / 10000000000000000)) (by norm_num [MF_Radial_id_pl, RisingFactorial, Finset.prod_range_succ, Finset.sum_Ico_eq_sum_range, Finset.sum_range_succ, Nat.choose]) (by norm_num) (by norm_num [abs_of_pos, abs_of_neg]) (by norm_num) (by norm_num)
  refine all_cons ?_ ?_
  · exact isClose_val (v := 2) (d := (1 / 5000000)) (by norm_num [MF_Radial_id_pl, RisingFactorial, Finset.prod_range_succ, Finset.sum_Ico_eq_sum_range, Finset.sum_range_succ, Nat.choose]) (by norm_num) (by norm_num [abs_of_pos, abs_of_neg]) (by norm_num) (by norm_num)
  refine all_cons ?_ ?_
  · exact isClose_val (v := (11 / 2)) (d := (11 / 20000000)) (by norm_num [MF_Radial_id_pl, RisingFactorial, Finset.prod_range_succ, Finset.sum_Ico_eq_sum_range, Finset.sum_range_succ, Nat.choose]) (by norm_num) (by norm_num [abs_of_pos, abs_of_neg]) (by norm_num) (by norm_num)
  refine all_cons ?_ ?_
  · exact isClose_val (v := (-11 / 2)) (d := (11 / 20000000)) (by norm_num [MF_Radial_id_pl, RisingFactorial, Finset.prod_range_succ, Finset.sum_Ico_eq_sum_range, Finset.sum_range_succ, Nat.choose]) (by norm_num) (by norm_num [abs_of_pos, abs_of_neg]) (by norm_num) (by norm_num)
  refine all_cons ?_ ?_
  · exact isClose_val (v := (11 / 2)) (d := (11 / 20000000)) (by norm_num [MF_Radial_id_pl, RisingFactorial, Finset.prod_range_succ, Finset.sum_Ico_eq_sum_range, Finset.sum_range_succ, Nat.choose]) (by norm_num) (by norm_num [abs_of_pos, abs_of_neg]) (by norm_num) (by norm_num)
  refine all_cons ?_ ?_
  · exact isClose_val (v := 3) (d := (3 / 10000000)) (by norm_num [MF_Radial_id_pl, RisingFactorial, Finset.prod_range_succ, Finset.sum_Ico_eq_sum_range, Finset.sum_range_succ, Nat.choose]) (by norm_num) (by norm_num [abs_of_pos, abs_of_neg]) (by norm_num) (by norm_num)
  refine all_cons ?_ ?_
  · exact isClose_val (v := (-11 / 2)) (d := (11 / 20000000)) (by norm_num [MF_Radial_id_pl, RisingFactorial, Finset.prod_range_succ, Finset.sum_Ico_eq_sum_range, Finset.sum_range_succ, Nat.choose]) (by norm_num) (by norm_num [abs_of_pos, abs_of_neg]) (by norm_num) (by norm_num)
  refine all_cons ?_ ?_
  · exact isClose_val (v := (11 / 2)) (d := (11 / 20000000)) (by norm_num [MF_Radial_id_pl, RisingFactorial, Finset.prod_range_succ, Finset.sum_Ico_eq_sum_range, Finset.sum_range_succ, Nat.choose]) (by norm_num) (by norm_num [abs_of_pos, abs_of_neg]) (by norm_num) (by norm_num)
  refine all_cons ?_ ?_
  · exact isClose_val (v := (-11 / 2)) (d := (11 / 20000000)) (by norm_num [MF_Radial_id_pl, RisingFactorial, Finset.prod_range_succ, Finset.sum_Ico_eq_sum_range, Finset.sum_range_succ, Nat.choose]) (by norm_num) (by norm_num [abs_of_pos, abs_of_neg]) (by norm_num) (by norm_num)
  refine all_cons ?_ ?_
  · exact isClose_val (v := (11 / 2)) (d := (11 / 20000000)) (by norm_num [MF_Radial_id_pl, RisingFactorial, Finset.prod_range_succ, Finset.sum_Ico_eq_sum_range, Finset.sum_range_succ, Nat.choose]) (by norm_num) (by norm_num [abs_of_pos, abs_of_neg]) (by norm_num) (by norm_num)
  refine all_cons ?_ ?_
  · exact isClose_val (v := 4) (d := (1 / 2500000)) (by norm_num [MF_Radial_id_pl, RisingFactorial, Finset.prod_range_succ, Finset.sum_Ico_eq_sum_range, Finset.sum_range_succ, Nat.choose]) (by norm_num) (by norm_num [abs_of_pos, abs_of_neg]) (by norm_num) (by norm_num)
  refine all_cons ?_ ?_
  · exact isClose_val (v := (11 / 2)) (d := (11 / 20000000)) (by norm_num [MF_Radial_id_pl, RisingFactorial, Finset.prod_range_succ, Finset.sum_Ico_eq_sum_range, Finset.sum_range_succ, Nat.choose]) (by norm_num) (by norm_num [abs_of_pos, abs_of_neg]) (by norm_num) (by norm_num)
  refine all_cons ?_ ?_
  · exact isClose_val (v := (-11 / 2)) (d := (11 / 20000000)) (by norm_num [MF_Radial_id_pl, RisingFactorial, Finset.prod_range_succ, Finset.sum_Ico_eq_sum_range, Finset.sum_range_succ, Nat.choose]) (by norm_num) (by norm_num [abs_of_pos, abs_of_neg]) (by norm_num) (by norm_num)
  refine all_cons ?_ ?_
  · exact isClose_val (v := (11 / 2)) (d := (11 / 20000000)) (by norm_num [MF_Radial_id_pl, RisingFactorial, Finset.prod_range_succ, Finset.sum_Ico_eq_sum_range, Finset.sum_range_succ, Nat.choose]) (by norm_num) (by norm_num [abs_of_pos, abs_of_neg]) (by norm_num) (by norm_num)
  refine all_cons ?_ ?_
  · exact isClose_val (v := (-11 / 2)) (d := (11 / 20000000)) (by norm_num [MF_Radial_id_pl, RisingFactorial, Finset.prod_range_succ, Finset.sum_Ico_eq_sum_range, Finset.sum_range_succ, Nat.choose]) (by norm_num) (by norm_num [abs_of_pos, abs_of_neg]) (by norm_num) (by norm_num)
  refine all_cons ?_ ?_
  · exact isClose_val (v := (11 / 2)) (d := (11 / 20000000)) (by norm_num [MF_Radial_id_pl, RisingFactorial, Finset.prod_range_succ, Finset.sum_Ico_eq_sum_range, Finset.sum_range_succ, Nat.choose]) (by norm_num) (by norm_num [abs_of_pos, abs_of_neg]) (by norm_num) (by norm_num)
  refine all_cons ?_ ?_
  · exact isClose_val (v := 5) (d := (1 / 2000000)) (by norm_num [MF_Radial_id_pl, RisingFactorial, Finset.prod_range_succ, Finset.sum_Ico_eq_sum_range, Finset.sum_range_succ, Nat.choose]) (by norm_num) (by norm_num [abs_of_pos, abs_of_neg]) (by norm_num) (by norm_num)
  refine all_cons ?_ ?_
  · exact isClose_val (v := (143 / 4)) (d := (3574999999 / 1000000000000000)) (by norm_num [MF_Radial_id_pl, RisingFactorial, Finset.prod_range_succ, Finset.sum_Ico_eq_sum_range, Finset.sum_range_succ, Nat.choose]) (by norm_num) (by norm_num [abs_of_pos, abs_of_neg]) (by norm_num) (by norm_num)
  refine all_cons ?_ ?_
  · exact isClose_val (v := 13) (d := (13 / 10000000)) (by norm_num [MF_Radial_id_pl, RisingFactorial, Finset.prod_range_succ, Finset.sum_Ico_eq_sum_range, Finset.sum_range_succ, Nat.choose]) (by norm_num) (by norm_num [abs_of_pos, abs_of_neg]) (by norm_num) (by norm_num)
  refine all_cons ?_ ?_
  · exact isClose_val (v := 2) (d := (1 / 5000000)) (by norm_num [MF_Radial_id_pl, RisingFactorial, Finset.prod_range_succ, Finset.sum_Ico_eq_sum_range, Finset.sum_range_succ, Nat.choose]) (by norm_num) (by norm_num [abs_of_pos, abs_of_neg]) (by norm_num) (by norm_num)
  refine all_cons ?_ ?_
  · exact isClose_val (v := (-143 / 2)) (d := (143 / 20000000)) (by norm_num [MF_Radial_id_pl, RisingFactorial, Finset.prod_range_succ, Finset.sum_Ico_eq_sum_range, Finset.sum_range_succ, Nat.choose]) (by norm_num) (by norm_num [abs_of_pos, abs_of_neg]) (by norm_num) (by norm_num)
  refine all_cons ?_ ?_
  · exact isClose_val (v := (91 / 4)) (d := (1137500001 / 500000000000000)) (by norm_num [MF_Radial_id_pl, RisingFactorial, Finset.prod_range_succ, Finset.sum_Ico_eq_sum_range, Finset.sum_range_succ, Nat.choose]) (by norm_num) (by norm_num [abs_of_pos, abs_of_neg]) (by norm_num) (by norm_num)
  refine all_cons ?_ ?_
  · exact isClose_val (v := 26) (d := (13 / 5000000)) (by norm_num [MF_Radial_id_pl, RisingFactorial, Finset.prod_range_succ, Finset.sum_Ico_eq_sum_range, Finset.sum_range_succ, Nat.choose]) (by norm_num) (by norm_num [abs_of_pos, abs_of_neg]) (by norm_num) (by norm_num)
  refine all_cons ?_ ?_
  · exact isClose_val (v := 6) (d := (3 / 5000000)) (by norm_num [MF_Radial_id_pl, RisingFactorial, Finset.prod_range_succ, Finset.sum_Ico_eq_sum_range, Finset.sum_range_succ, Nat.choose]) (by norm_num) (by norm_num [abs_of_pos, abs_of_neg]) (by norm_num) (by norm_num)
  refine all_cons ?_ ?_
  · exact isClose_val (v := (429 / 4)) (d := (429 / 40000000)) (by norm_num [MF_Radial_id_pl, RisingFactorial, Finset.prod_range_succ, Finset.sum_Ico_eq_sum_range, Finset.sum_range_succ, Nat.choose]) (by norm_num) (by norm_num [abs_of_pos, abs_of_neg]) (by norm_num) (by norm_num)
  refine all_cons ?_ ?_
  · exact isClose_val (v := (-117 / 2)) (d := (584999999 / 100000000000000)) (by norm_num [MF_Radial_id_pl, RisingFactorial, Finset.prod_range_succ, Finset.sum_Ico_eq_sum_range, Finset.sum_range_succ, Nat.choose]) (by norm_num) (by norm_num [abs_of_pos, abs_of_neg]) (by norm_num) (by norm_num)
  refine all_cons ?_ ?_
  · exact isClose_val (v := (39 / 4)) (d := (194999999 / 200000000000000)) (by norm_num [MF_Radial_id_pl, RisingFactorial, Finset.prod_range_succ, Finset.sum_Ico_eq_sum_range, Finset.sum_range_succ, Nat.choose]) (by norm_num) (by norm_num [abs_of_pos, abs_of_neg]) (by norm_num) (by norm_num)
  refine all_cons ?_ ?_
  · exact isClose_val (v := 39) (d := (779999999 / 200000000000000)) (by norm_num [MF_Radial_id_pl, RisingFactorial, Finset.prod_range_succ, Finset.sum_Ico_eq_sum_range, Finset.sum_range_succ, Nat.choose]) (by norm_num) (by norm_num [abs_of_pos, abs_of_neg]) (by norm_num) (by norm_num)
  refine all_cons ?_ ?_
  · exact isClose_val (v := 12) (d := (3 / 2500000)) (by norm_num [MF_Radial_id_pl, RisingFactorial, Finset.prod_range_succ, Finset.sum_Ico_eq_sum_range, Finset.sum_range_succ, Nat.choose]) (by norm_num) (by norm_num [abs_of_pos, abs_of_neg]) (by norm_num) (by norm_num)
  refine all_cons ?_ ?_
  · exact isClose_val (v := (-143)) (d := (1429999999 / 100000000000000)) (by norm_num [MF_Radial_id_pl, RisingFactorial, Finset.prod_range_succ, Finset.sum_Ico_eq_sum_range, Finset.sum_range_succ, Nat.choose]) (by norm_num) (by norm_num [abs_of_pos, abs_of_neg]) (by norm_num) (by norm_num)
  refine all_cons ?_ ?_
  · exact isClose_val (v := (377 / 4)) (d := (377 / 40000000)) (by norm_num [MF_Radial_id_pl, RisingFactorial, Finset.prod_range_succ, Finset.sum_Ico_eq_sum_range, Finset.sum_range_succ, Nat.choose]) (by norm_num) (by norm_num [abs_of_pos, abs_of_neg]) (by norm_num) (by norm_num)
  refine all_cons ?_ ?_
  · exact isClose_val (v := (-91 / 2)) (d := (227499999 / 50000000000000)) (by norm_num [MF_Radial_id_pl, RisingFactorial, Finset.prod_range_succ, Finset.sum_Ico_eq_sum_range, Finset.sum_range_succ, Nat.choose]) (by norm_num) (by norm_num [abs_of_pos, abs_of_neg]) (by norm_num) (by norm_num)
  refine all_cons ?_ ?_
  · exact isClose_val (v := (-13 / 4)) (d := (16250001 / 50000000000000)) (by norm_num [MF_Radial_id_pl, RisingFactorial, Finset.prod_range_succ, Finset.sum_Ico_eq_sum_range, Finset.sum_range_succ, Nat.choose]) (by norm_num) (by norm_num [abs_of_pos, abs_of_neg]) (by norm_num) (by norm_num)
  refine all_cons ?_ ?_
  · exact isClose_val (v := 52) (d := (5200000003 / 1000000000000000)) (by norm_num [MF_Radial_id_pl, RisingFactorial, Finset.prod_range_succ, Finset.sum_Ico_eq_sum_range, Finset.sum_range_succ, Nat.choose]) (by norm_num) (by norm_num [abs_of_pos, abs_of_neg]) (by norm_num) (by norm_num)
  refine all_cons ?_ ?_
  · exact isClose_val (v := 20) (d := (1 / 500000)) (by norm_num [MF_Radial_id_pl, RisingFactorial, Finset.prod_range_succ, Finset.sum_Ico_eq_sum_range, Finset.sum_range_succ, Nat.choose]) (by norm_num) (by norm_num [abs_of_pos, abs_of_neg]) (by norm_num) (by norm_num)
  refine all_cons ?_ ?_
  · exact isClose_val (v := (715 / 4)) (d := (143 / 8000000)) (by norm_num [MF_Radial_id_pl, RisingFactorial, Finset.prod_range_succ, Finset.sum_Ico_eq_sum_range, Finset.sum_range_succ, Nat.choose]) (by norm_num) (by norm_num [abs_of_pos, abs_of_neg]) (by norm_num) (by norm_num)
  refine all_cons ?_ ?_
  · exact isClose_val (v := (-130)) (d := (325000001 / 25000000000000)) (by norm_num [MF_Radial_id_pl, RisingFactorial, Finset.prod_range_succ, Finset.sum_Ico_eq_sum_range, Finset.sum_range_succ, Nat.choose]) (by norm_num) (by norm_num [abs_of_pos, abs_of_neg]) (by norm_num) (by norm_num)
  refine all_cons ?_ ?_
  · exact isClose_val (v := (325 / 4)) (d := (203125001 / 25000000000000)) (by norm_num [MF_Radial_id_pl, RisingFactorial, Finset.prod_range_succ, Finset.sum_Ico_eq_sum_range, Finset.sum_range_succ, Nat.choose]) (by norm_num) (by norm_num [abs_of_pos, abs_of_neg]) (by norm_num) (by norm_num)
  refine all_cons ?_ ?_
  · exact isClose_val (v := (-65 / 2)) (d := (325000001 / 100000000000000)) (by norm_num [MF_Radial_id_pl, RisingFactorial, Finset.prod_range_succ, Finset.sum_Ico_eq_sum_range, Finset.sum_range_succ, Nat.choose]) (by norm_num) (by norm_num [abs_of_pos, abs_of_neg]) (by norm_num) (by norm_num)
  refine all_cons ?_ ?_
  · exact isClose_val (v := (-65 / 4)) (d := (162499999 / 100000000000000)) (by norm_num [MF_Radial_id_pl, RisingFactorial, Finset.prod_range_succ, Finset.sum_Ico_eq_sum_range, Finset.sum_range_succ, Nat.choose]) (by norm_num) (by norm_num [abs_of_pos, abs_of_neg]) (by norm_num) (by norm_num)
  refine all_cons ?_ ?_
  · exact isClose_val (v := 65) (d := (13 / 2000000)) (by norm_num [MF_Radial_id_pl, RisingFactorial, Finset.prod_range_succ, Finset.sum_Ico_eq_sum_range, Finset.sum_range_succ, Nat.choose]) (by norm_num) (by norm_num [abs_of_pos, abs_of_neg]) (by norm_num) (by norm_num)
  refine all_cons ?_ ?_
  · exact isClose_val (v := 30) (d := (3 / 1000000)) (by norm_num [MF_Radial_id_pl, RisingFactorial, Finset.prod_range_succ, Finset.sum_Ico_eq_sum_range, Finset.sum_range_succ, Nat.choose]) (by norm_num) (by norm_num [abs_of_pos, abs_of_neg]) (by norm_num) (by norm_num)
  exact all_nil

end Acm.Tests
