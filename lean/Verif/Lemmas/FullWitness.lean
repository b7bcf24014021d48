import Verif.Lemmas.FullOps
import Verif.Lemmas.Radial
import Verif.Lemmas.RadialWindow

/-!
# Radial matrices of single operators, used in concrete examples
-/

namespace Acm

open Acm.Spec

section
variable {F M : Type} [Field F] [LinearOrder F] (A : RadAlg F M)

theorem bS_DS_one {K T R : Int} {lam : F} (h0 : ¬ (lam ≤ 0 ∨ lam + (R : F) ≤ 0))
    (h1 : ¬ (K = 0 ∧ T = 0 ∧ is_odd R = true)) (h2 : Lambda_Splits K T R = .ok [R]) (hR : R = 1 ∨ R = -1)
    (hn : (|K| + T).toNat = 1) {m : RadME}
    (hs : bS_DS_select A K [R] 1 lam = (do let x ← A.rep m lam; pure (A.scale 1 x, 1))) :
    RepRadial_bS_DS A K T lam R = (do let x ← A.rep m lam; pure (A.scale 1 x)) := by
  unfold RepRadial_bS_DS
  rw [if_neg h0, if_neg h1, h2, py_bind_ok]
  simp only [hn, List.length_singleton, gt_iff_lt, lt_irrefl, if_false]
  simp only [pyAssert, decide_true, if_true, py_pure, py_bind_ok]
  unfold bS_DS_loop
  rw [hs]
  cases A.rep m lam with
  | error e => rfl
  | ok x =>
    rcases hR with rfl | rfl <;> rfl

theorem bS_DS_two {K T : Int} {lam : F} (h0 : ¬ (lam ≤ 0 ∨ lam + ((0 : Int) : F) ≤ 0))
    (h1 : ¬ (K = 0 ∧ T = 0 ∧ is_odd 0 = true)) (h2 : Lambda_Splits K T 0 = .ok [0, 0])
    (hn : (|K| + T).toNat = 2) {m : RadME}
    (hs : bS_DS_select A K [0, 0] 2 lam = (do let x ← A.rep m lam; pure (A.scale 2 x, 2))) :
    RepRadial_bS_DS A K T lam 0 = (do let x ← A.rep m lam; pure (A.scale 2 x)) := by
  unfold RepRadial_bS_DS
  rw [if_neg h0, if_neg h1, h2, py_bind_ok]
  simp only [hn, List.length_cons, List.length_nil, gt_iff_lt]
  simp only [pyAssert, py_pure, py_bind_ok]
  simp only [Nat.reduceAdd, lt_irrefl, if_false, List.length_cons, List.length_nil, decide_true, if_true, py_bind_ok]
  unfold bS_DS_loop
  rw [hs]
  cases A.rep m lam with
  | error e => rfl
  | ok x => rfl

end

theorem radial_plan {M : Type} {A : Int → Int → RadAlg ℝ M} {slice : M → Int → Int → M} {lam : ℝ} {op : RadSym}
    {R lo hi K T k : Int} {m : RadME} (h1 : 0 < lam) (h2 : 0 < lam + (R : ℝ)) (h3 : 0 ≤ lo)
    (hp : RepRadial_Prod_plan [op] R = .ok ([.KT K T], [R]))
    (hb : RepRadial_bS_DS (A lo hi) K T lam R
      = (do let x ← (A lo hi).rep m lam; pure ((A lo hi).scale k x))) :
    RepRadial_Prod A slice [op] lam R lo hi 0
      = (do let x ← (A lo hi).rep m lam; pure ((A lo hi).scale k x)) := by
  unfold RepRadial_Prod
  rw [if_neg (by linarith), if_neg (by linarith), hp, py_bind_ok]
  simp only [RepRadialshfs_Prod, RepRadialshfs_loop, py_pure, py_bind_ok, KTSOp.representation]
  rw [min_eq_left h3, sub_zero, add_zero, hb]
  cases (A lo hi).rep m lam <;> rfl

theorem prod_Db_pl {M : Type} (A : Int → Int → RadAlg ℝ M) (slice : M → Int → Int → M) {lam : ℝ} {lo hi : Int}
    (h1 : 0 < lam) (h3 : 0 ≤ lo) : RepRadial_Prod A slice [.Db] lam 1 lo hi 0
      = (do let x ← (A lo hi).rep .Db_pl lam; pure ((A lo hi).scale 1 x)) := by
  refine radial_plan (m := .Db_pl) h1 (by push_cast; linarith) h3 (K := 0) (T := 1) (by decide +kernel) ?_
  refine bS_DS_one _ ?_ (by decide) (by decide +kernel) (Or.inl rfl) (by decide) rfl
  rintro (h | h) <;> push_cast at h <;> linarith

theorem radial_Db_pl {la : LinAlg} {anorm lam : ℝ} {lo hi : Int} (h1 : 0 < lam) (h3 : 0 ≤ lo) :
    RepRadialProd la anorm [.Db] lam 1 lo hi 0
      = (do let x ← RepRadial ME_Radial_Db_pl lam lo hi; pure (x.smul (anorm ^ (1 : Int)))) :=
  prod_Db_pl _ _ h1 h3

theorem dtype_Db_pl {lam : ℝ} {lo hi : Int} (h1 : 0 < lam) (h3 : 0 ≤ lo) (hr : lo ≤ hi) :
    RepRadialProd_dtype [.Db] lam 1 lo hi 0 = .ok (RadME.dtype .Db_pl) := by
  unfold RepRadialProd_dtype
  rw [prod_Db_pl _ _ h1 h3]
  show Except.ok (if hi < lo then _ else _) = _
  rw [if_neg (not_lt.2 hr)]

theorem prod_Db_ml {M : Type} (A : Int → Int → RadAlg ℝ M) (slice : M → Int → Int → M) {lam : ℝ} {lo hi : Int}
    (h1 : 1 < lam) (h3 : 0 ≤ lo) : RepRadial_Prod A slice [.Db] lam (-1) lo hi 0
      = (do let x ← (A lo hi).rep .Db_ml lam; pure ((A lo hi).scale 1 x)) := by
  refine radial_plan (m := .Db_ml) (by linarith) (by push_cast; linarith) h3 (K := 0) (T := 1) (by decide +kernel) ?_
  refine bS_DS_one _ ?_ (by decide) (by decide +kernel) (Or.inr rfl) (by decide) rfl
  rintro (h | h) <;> push_cast at h <;> linarith

theorem radial_Db_ml {la : LinAlg} {anorm lam : ℝ} {lo hi : Int} (h1 : 1 < lam) (h3 : 0 ≤ lo) :
    RepRadialProd la anorm [.Db] lam (-1) lo hi 0
      = (do let x ← RepRadial ME_Radial_Db_ml lam lo hi; pure (x.smul (anorm ^ (1 : Int)))) :=
  prod_Db_ml _ _ h1 h3

theorem dtype_Db_ml {lam : ℝ} {lo hi : Int} (h1 : 1 < lam) (h3 : 0 ≤ lo) (hr : lo ≤ hi) :
    RepRadialProd_dtype [.Db] lam (-1) lo hi 0 = .ok (RadME.dtype .Db_ml) := by
  unfold RepRadialProd_dtype
  rw [prod_Db_ml _ _ h1 h3]
  show Except.ok (if hi < lo then _ else _) = _
  rw [if_neg (not_lt.2 hr)]

theorem prod_bm_pl {M : Type} (A : Int → Int → RadAlg ℝ M) (slice : M → Int → Int → M) {lam : ℝ} {lo hi : Int}
    (h1 : 0 < lam) (h3 : 0 ≤ lo) : RepRadial_Prod A slice [.bm] lam 1 lo hi 0
      = (do let x ← (A lo hi).rep .bm_pl lam; pure ((A lo hi).scale 1 x)) := by
  refine radial_plan (m := .bm_pl) h1 (by push_cast; linarith) h3 (K := -1) (T := 0) (by decide +kernel) ?_
  refine bS_DS_one _ ?_ (by decide) (by decide +kernel) (Or.inl rfl) (by decide) rfl
  rintro (h | h) <;> push_cast at h <;> linarith

theorem radial_bm_pl {la : LinAlg} {anorm lam : ℝ} {lo hi : Int} (h1 : 0 < lam) (h3 : 0 ≤ lo) :
    RepRadialProd la anorm [.bm] lam 1 lo hi 0
      = (do let x ← RepRadial ME_Radial_bm_pl lam lo hi; pure (x.smul (anorm ^ (1 : Int)))) :=
  prod_bm_pl _ _ h1 h3

theorem dtype_bm_pl {lam : ℝ} {lo hi : Int} (h1 : 0 < lam) (h3 : 0 ≤ lo) (hr : lo ≤ hi) :
    RepRadialProd_dtype [.bm] lam 1 lo hi 0 = .ok (RadME.dtype .bm_pl) := by
  unfold RepRadialProd_dtype
  rw [prod_bm_pl _ _ h1 h3]
  show Except.ok (if hi < lo then _ else _) = _
  rw [if_neg (not_lt.2 hr)]

theorem prod_bm_ml {M : Type} (A : Int → Int → RadAlg ℝ M) (slice : M → Int → Int → M) {lam : ℝ} {lo hi : Int}
    (h1 : 1 < lam) (h3 : 0 ≤ lo) : RepRadial_Prod A slice [.bm] lam (-1) lo hi 0
      = (do let x ← (A lo hi).rep .bm_ml lam; pure ((A lo hi).scale 1 x)) := by
  refine radial_plan (m := .bm_ml) (by linarith) (by push_cast; linarith) h3 (K := -1) (T := 0) (by decide +kernel) ?_
  refine bS_DS_one _ ?_ (by decide) (by decide +kernel) (Or.inr rfl) (by decide) rfl
  rintro (h | h) <;> push_cast at h <;> linarith

theorem radial_bm_ml {la : LinAlg} {anorm lam : ℝ} {lo hi : Int} (h1 : 1 < lam) (h3 : 0 ≤ lo) :
    RepRadialProd la anorm [.bm] lam (-1) lo hi 0
      = (do let x ← RepRadial ME_Radial_bm_ml lam lo hi; pure (x.smul (anorm ^ (1 : Int)))) :=
  prod_bm_ml _ _ h1 h3

theorem dtype_bm_ml {lam : ℝ} {lo hi : Int} (h1 : 1 < lam) (h3 : 0 ≤ lo) (hr : lo ≤ hi) :
    RepRadialProd_dtype [.bm] lam (-1) lo hi 0 = .ok (RadME.dtype .bm_ml) := by
  unfold RepRadialProd_dtype
  rw [prod_bm_ml _ _ h1 h3]
  show Except.ok (if hi < lo then _ else _) = _
  rw [if_neg (not_lt.2 hr)]

theorem prod_D2b {M : Type} (A : Int → Int → RadAlg ℝ M) (slice : M → Int → Int → M) {lam : ℝ} {lo hi : Int}
    (h1 : 0 < lam) (h3 : 0 ≤ lo) : RepRadial_Prod A slice [.D2b] lam 0 lo hi 0
      = (do let x ← (A lo hi).rep .D2b lam; pure ((A lo hi).scale 2 x)) := by
  refine radial_plan (m := .D2b) h1 (by push_cast; linarith) h3 (K := 0) (T := 2) (by decide +kernel) ?_
  refine bS_DS_two _ ?_ (by decide) (by decide +kernel) (by decide) rfl
  rintro (h | h) <;> push_cast at h <;> linarith

theorem radial_D2b {la : LinAlg} {anorm lam : ℝ} {lo hi : Int} (h1 : 0 < lam) (h3 : 0 ≤ lo) :
    RepRadialProd la anorm [.D2b] lam 0 lo hi 0
      = (do let x ← RepRadial ME_Radial_D2b lam lo hi; pure (x.smul (anorm ^ (2 : Int)))) :=
  prod_D2b _ _ h1 h3

theorem dtype_D2b {lam : ℝ} {lo hi : Int} (h1 : 0 < lam) (h3 : 0 ≤ lo) (hr : lo ≤ hi) :
    RepRadialProd_dtype [.D2b] lam 0 lo hi 0 = .ok (RadME.dtype .D2b) := by
  unfold RepRadialProd_dtype
  rw [prod_D2b _ _ h1 h3]
  show Except.ok (if hi < lo then _ else _) = _
  rw [if_neg (not_lt.2 hr)]

theorem prod_bm2 {M : Type} (A : Int → Int → RadAlg ℝ M) (slice : M → Int → Int → M) {lam : ℝ} {lo hi : Int}
    (h1 : 0 < lam) (h3 : 0 ≤ lo) : RepRadial_Prod A slice [.bm2] lam 0 lo hi 0
      = (do let x ← (A lo hi).rep .bm2 lam; pure ((A lo hi).scale 2 x)) := by
  refine radial_plan (m := .bm2) h1 (by push_cast; linarith) h3 (K := -2) (T := 0) (by decide +kernel) ?_
  refine bS_DS_two _ ?_ (by decide) (by decide +kernel) (by decide) rfl
  rintro (h | h) <;> push_cast at h <;> linarith

theorem radial_bm2 {la : LinAlg} {anorm lam : ℝ} {lo hi : Int} (h1 : 0 < lam) (h3 : 0 ≤ lo) :
    RepRadialProd la anorm [.bm2] lam 0 lo hi 0
      = (do let x ← RepRadial ME_Radial_bm2 lam lo hi; pure (x.smul (anorm ^ (2 : Int)))) :=
  prod_bm2 _ _ h1 h3

theorem dtype_bm2 {lam : ℝ} {lo hi : Int} (h1 : 0 < lam) (h3 : 0 ≤ lo) (hr : lo ≤ hi) :
    RepRadialProd_dtype [.bm2] lam 0 lo hi 0 = .ok (RadME.dtype .bm2) := by
  unfold RepRadialProd_dtype
  rw [prod_bm2 _ _ h1 h3]
  show Except.ok (if hi < lo then _ else _) = _
  rw [if_neg (not_lt.2 hr)]

/-- The one-state matrix of `nu = 0`. -/
theorem rep_one {ME : ℝ → ℕ → ℕ → Py ℝ} {lam : ℝ} {f : ℕ → ℕ → ℝ} (h : Entries (ME lam) f) :
    RepRadial ME lam 0 0 = .ok (Arr.of 1 1 f) := by
  unfold RepRadial
  have e := ofM_eq (n := 1) (m := 1) (f := fun i j => ME lam i j) (g := f) (fun i _ j _ => h i j)
  simpa using e

/-- The 1x1 matrix with the entry `x`. -/
noncomputable def one1 (x : ℝ) : Arr := Arr.of 1 1 fun _ _ => x

theorem of_one (f : ℕ → ℕ → ℝ) : Arr.of 1 1 f = one1 (f 0 0) := by
  unfold one1 Arr.of
  congr 1
  funext i j
  by_cases h : i < 1 ∧ j < 1
  · rw [if_pos h, if_pos h]
    congr 1 <;> omega
  · rw [if_neg h, if_neg h]

theorem one1_smul (x c : ℝ) : (one1 x).smul c = one1 (x * c) := by
  unfold one1 Arr.smul Arr.of
  congr 1
  funext i j
  simp only
  split_ifs <;> rfl

theorem one1_add (x y : ℝ) : (one1 x).add (one1 y) = one1 (x + y) := by
  unfold one1 Arr.add Arr.of
  congr 1
  funext i j
  simp only
  split_ifs <;> rfl

theorem one1_e (x : ℝ) : (one1 x).e 0 0 = x := by simp [one1, Arr.of]

theorem one1_shape (x : ℝ) : (one1 x).rows = 1 ∧ (one1 x).cols = 1 := ⟨rfl, rfl⟩

theorem LC_two {la : LinAlg} {anorm lam : ℝ} {o1 o2 : RadSym} {R lo hi nl : Int} {c1 c2 x y : ℝ} {d1 d2 : Dtype}
    (h1 : RepRadialProd la anorm [o1] lam R lo hi nl = .ok (one1 x))
    (h2 : RepRadialProd la anorm [o2] lam R lo hi nl = .ok (one1 y))
    (h3 : RepRadialProd_dtype [o1] lam R lo hi nl = .ok d1)
    (h4 : RepRadialProd_dtype [o2] lam R lo hi nl = .ok d2) (h5 : iaddCheck d1 d2 = .ok ()) :
    RepRadial_LC la [(c1, [o1]), (c2, [o2])] anorm lam R lo hi nl = .ok (one1 (x * c1 + y * c2)) := by
  unfold RepRadial_LC
  simp only [h1, py_bind_ok, RepRadial_LC_loop, h2, h3, h4, h5, one1_smul, one1_add]
  rfl

/-- `d/dbeta + c/beta` from `lambda` to `lambda + 1`, at `nu = 0`. -/
theorem LC_up {la : LinAlg} {lam : ℝ} (h : 0 < lam) (c : ℝ) :
    RepRadial_LC la [(1, [.Db]), (c, [.bm])] 1 lam 1 0 0 0
      = .ok (one1 (vDb_pl lam 0 0 * 1 + vbm_pl lam 0 0 * c)) := by
  refine LC_two ?_ ?_ (dtype_Db_pl h le_rfl le_rfl) (dtype_bm_pl h le_rfl le_rfl) rfl
  · rw [radial_Db_pl h le_rfl, rep_one (Db_pl_ok h), py_bind_ok, of_one, one1_smul]; simp
  · rw [radial_bm_pl h le_rfl, rep_one (bm_pl_ok h), py_bind_ok, of_one, one1_smul]; simp

/-- `d^2/dbeta^2 + c/beta^2` at `nu = 0`. -/
theorem LC_same {la : LinAlg} {lam : ℝ} (h : 0 < lam) (h1 : lam ≠ 1) (c : ℝ) :
    RepRadial_LC la [(1, [.D2b]), (c, [.bm2])] 1 lam 0 0 0 0
      = .ok (one1 (-lam + (lam - 3 / 2) * (lam - 1 / 2) / (lam - 1) + c / (lam - 1))) := by
  have hb : vbm2 lam 0 0 = 1 / (lam - 1) := by
    have := hN_pos h 0
    simp [vbm2, this.ne']
  rw [LC_two (x := -lam + (lam - 3 / 2) * (lam - 1 / 2) / (lam - 1)) (y := 1 / (lam - 1)) ?_ ?_ (dtype_D2b h le_rfl le_rfl)
    (dtype_bm2 h le_rfl le_rfl) rfl]
  · congr 2; ring
  · rw [radial_D2b h le_rfl, rep_one (D2b_ok h h1), py_bind_ok, of_one, one1_smul]
    simp only [hb, vSp, vSm, vS0]
    congr 2
    norm_num
    ring
  · rw [radial_bm2 h le_rfl, rep_one (bm2_ok h h1), py_bind_ok, of_one, one1_smul, hb]; simp

theorem vbm_pl_zero {lam : ℝ} (h : 0 < lam) : vbm_pl lam 0 0 = 1 / Real.sqrt lam := by
  have := (hN_pos h 0).ne'
  have hs : Real.sqrt lam ≠ 0 := (Real.sqrt_pos.2 h).ne'
  unfold vbm_pl
  rw [if_pos le_rfl, hN_add_one h 0]
  simp only [Nat.cast_zero, add_zero, pow_zero, one_mul]
  field_simp

theorem vDb_pl_zero {lam : ℝ} (h : 0 < lam) : vDb_pl lam 0 0 = -1 / (2 * Real.sqrt lam) := by
  have hs : Real.sqrt lam ≠ 0 := (Real.sqrt_pos.2 h).ne'
  have hq : Real.sqrt lam ^ 2 = lam := Real.sq_sqrt h.le
  unfold vDb_pl
  rw [vbm_pl_zero h]
  simp only [Nat.cast_zero, add_zero, zero_add, zero_ne_one, if_false, if_true]
  field_simp
  rw [hq]
  ring

end Acm
