import Verif.Props.Subspace
import Verif.Spec.Width
import Verif.Lemmas.RadialHom
import Verif.Props.HamData

/-!
# C104: the width of the basis is a unit of length

A matrix for the width `anorm` is the matrix for the width 1 times the power of `anorm` that belongs to the operator; so the
energies depend on `anorm` and the coefficients of the Hamiltonian only through the coefficients in units of the width.
-/

namespace Acm.Props

open Acm.Spec

/-! ### multiples of arrays -/

theorem times_one (A : Arr) : times 1 A = A := by
  ext i j
  · rfl
  · rfl
  · exact one_mul _

theorem times_times (c d : ℝ) (A : Arr) : times c (times d A) = times (c * d) A := by
  ext i j
  · rfl
  · rfl
  · exact (mul_assoc _ _ _).symm

theorem times_smul (c d : ℝ) (A : Arr) : (times c A).smul d = times c (A.smul d) := by
  ext i j
  · rfl
  · rfl
  · show (if i < A.rows ∧ j < A.cols then c * A.e i j * d else 0) = c * (if i < A.rows ∧ j < A.cols then A.e i j * d else 0)
    split_ifs <;> ring

theorem times_mul (c d : ℝ) (A B : Arr) : (times c A).mul (times d B) = times (c * d) (A.mul B) := by
  ext i j
  · rfl
  · rfl
  · show (if i < A.rows ∧ j < B.cols then ∑ k ∈ Finset.range A.cols, c * A.e i k * (d * B.e k j) else 0) =
      c * d * (if i < A.rows ∧ j < B.cols then ∑ k ∈ Finset.range A.cols, A.e i k * B.e k j else 0)
    split_ifs
    · rw [Finset.mul_sum]
      exact Finset.sum_congr rfl fun k _ => by ring
    · simp

theorem times_add (c : ℝ) (A B : Arr) : (times c A).add (times c B) = times c (A.add B) := by
  ext i j
  · rfl
  · rfl
  · show (if i < A.rows ∧ j < A.cols then c * A.e i j + c * B.e i j else 0) =
      c * (if i < A.rows ∧ j < A.cols then A.e i j + B.e i j else 0)
    split_ifs <;> ring

theorem times_zeros (c : ℝ) (n m : ℕ) : times c (Arr.zeros n m) = Arr.zeros n m := by
  ext i j
  · rfl
  · rfl
  · simp [Arr.zeros, Arr.of, times]

theorem times_neg (c : ℝ) (A : Arr) : (times c A).neg = times c A.neg := by
  ext i j
  · rfl
  · rfl
  · simp [Arr.neg, times]

/-! ### radial products -/

/-- Matrices for the width 1, with the power of the width. -/
noncomputable def pairAlg (la : LinAlg) (n0 n1 : Int) : RadAlg ℝ (Arr × Int) where
  rep m l := ((radMat la 1 n0 n1).rep m l).map fun A => (A, 0)
  id_pl l r := ((radMat la 1 n0 n1).id_pl l r).map fun A => (A, 0)
  id_ml l r := ((radMat la 1 n0 n1).id_ml l r).map fun A => (A, 0)
  b2_sqrt l := ((radMat la 1 n0 n1).b2_sqrt l).map fun A => (A, 0)
  b2_sqrtInv l := ((radMat la 1 n0 n1).b2_sqrtInv l).map fun A => (A, 0)
  mul x y := (x.1.mul y.1, x.2 + y.2)
  scale k x := (x.1.smul 1, x.2 + k)
  eye := ((radMat la 1 n0 n1).eye, 0)

theorem pair_prim {f : Arr × Int → Arr} (hf : ∀ A, f (A, 0) = A) (x : Py Arr) : x = (x.map fun A => (A, (0 : Int))).map f := by
  cases x with
  | error e => rfl
  | ok a => exact congrArg Except.ok (hf a).symm

theorem pair_fst (la : LinAlg) (n0 n1 : Int) : RadHom (pairAlg la n0 n1) (radMat la 1 n0 n1) Prod.fst where
  rep m l := pair_prim (fun _ => rfl) _
  id_pl l r := pair_prim (fun _ => rfl) _
  id_ml l r := pair_prim (fun _ => rfl) _
  b2_sqrt l := pair_prim (fun _ => rfl) _
  b2_sqrtInv l := pair_prim (fun _ => rfl) _
  mul _ _ := rfl
  scale k x := by
    show x.1.smul ((1 : ℝ) ^ k) = x.1.smul 1
    rw [one_zpow]
  eye := rfl

theorem pair_times (la : LinAlg) {c : ℝ} (hc : c ≠ 0) (n0 n1 : Int) :
    RadHom (pairAlg la n0 n1) (radMat la c n0 n1) fun x => times (c ^ x.2) x.1 where
  rep m l := pair_prim (fun A => by rw [zpow_zero, times_one]) _
  id_pl l r := pair_prim (fun A => by rw [zpow_zero, times_one]) _
  id_ml l r := pair_prim (fun A => by rw [zpow_zero, times_one]) _
  b2_sqrt l := pair_prim (fun A => by rw [zpow_zero, times_one]) _
  b2_sqrtInv l := pair_prim (fun A => by rw [zpow_zero, times_one]) _
  mul x y := by
    show (times (c ^ x.2) x.1).mul (times (c ^ y.2) y.1) = times (c ^ (x.2 + y.2)) (x.1.mul y.1)
    rw [times_mul, zpow_add₀ hc]
  scale k x := by
    show (times (c ^ x.2) x.1).smul (c ^ k) = times (c ^ (x.2 + k)) (x.1.smul 1)
    ext i j
    · rfl
    · rfl
    · show (if i < x.1.rows ∧ j < x.1.cols then c ^ x.2 * x.1.e i j * c ^ k else 0) =
        c ^ (x.2 + k) * (if i < x.1.rows ∧ j < x.1.cols then x.1.e i j * 1 else 0)
      rw [zpow_add₀ hc]
      split_ifs <;> ring
  eye := by
    show (radMat la c n0 n1).eye = times (c ^ (0 : Int)) (radMat la 1 n0 n1).eye
    rw [zpow_zero, times_one]
    rfl

theorem pair_expo (la : LinAlg) (n0 n1 : Int) {p : FormalProd ℝ} {z : Arr × Int} (h : Denotes (pairAlg la n0 n1) p z) :
    z.2 = p.expo := by
  have key : ∀ {x : Py Arr} {y : Arr × Int}, x.map (fun A => (A, (0 : Int))) = .ok y → y.2 = 0 := by
    intro x y h
    cases x with
    | error e => cases h
    | ok a => injection h with h; subst h; rfl
  induction h with
  | rep h => exact key h
  | id_pl h => exact key h
  | id_ml h => exact key h
  | b2_sqrt h => exact key h
  | b2_sqrtInv h => exact key h
  | mul _ _ h1 h2 => exact congrArg₂ (· + ·) h1 h2
  | scale k _ h => exact congrArg (· + k) h
  | eye => rfl

/-- A map of algebras that commutes with the slices. -/
theorem prod_map_slice {M N : Type} {A : Int → Int → RadAlg ℝ M} {B : Int → Int → RadAlg ℝ N} {f : M → N}
    {sM : M → Int → Int → M} {sN : N → Int → Int → N} (h : ∀ a b, RadHom (A a b) (B a b) f)
    (hs : ∀ x a b, sN (f x) a b = f (sM x a b)) (rbs_op : List RadSym) (lam : ℝ) (lambda_var nu_min nu_max nu_lap : Int) :
    RepRadial_Prod B sN rbs_op lam lambda_var nu_min nu_max nu_lap
      = (RepRadial_Prod A sM rbs_op lam lambda_var nu_min nu_max nu_lap).map f := by
  unfold RepRadial_Prod
  by_cases h1 : lam ≤ 0
  · rw [if_pos h1, if_pos h1]; rfl
  rw [if_neg h1, if_neg h1]
  by_cases h2 : lam + (lambda_var : ℝ) ≤ 0
  · rw [if_pos h2, if_pos h2]; rfl
  rw [if_neg h2, if_neg h2]
  cases RepRadial_Prod_plan rbs_op lambda_var with
  | error e => rfl
  | ok r =>
    simp only [py_bind_ok]
    rw [shfsProd_map (h _ _)]
    cases RepRadialshfs_Prod (A (nu_min - min nu_lap nu_min) (nu_max + nu_lap)) r.1 lam r.2 with
    | error e => rfl
    | ok y =>
      simp only [map_ok, py_bind_ok]
      by_cases h3 : nu_lap = 0
      · rw [if_pos h3, if_pos h3]; rfl
      · rw [if_neg h3, if_neg h3]
        show Except.ok (sN (f y) _ _) = _
        rw [hs]; rfl

theorem radial_width (la : LinAlg) {c : ℝ} (hc : c ≠ 0) (ops : List RadSym) (lam : ℝ) (lambda_var nu_min nu_max nu_lap : Int) :
    RepRadialProd la c ops lam lambda_var nu_min nu_max nu_lap =
      (RepRadialProd la 1 ops lam lambda_var nu_min nu_max nu_lap).map (times (c ^ (ops.map symExpo).sum)) := by
  have h1 := prod_map_slice (sM := fun x a b => (x.1.slice a b a b, x.2)) (sN := fun A a b => A.slice a b a b)
    (pair_fst la) (fun x a b => rfl) ops lam lambda_var nu_min nu_max nu_lap
  have h2 := prod_map_slice (sM := fun x a b => (x.1.slice a b a b, x.2)) (sN := fun A a b => A.slice a b a b)
    (pair_times la hc) (fun x a b => by
      ext i j
      · rfl
      · rfl
      · simp only [Arr.slice, Arr.of, times, mul_ite, mul_zero]
        rfl) ops lam lambda_var nu_min nu_max nu_lap
  unfold RepRadialProd
  rw [h1, h2]
  cases hy : RepRadial_Prod (pairAlg la) (fun x a b => (x.1.slice a b a b, x.2)) ops lam lambda_var nu_min nu_max nu_lap with
  | error e => rfl
  | ok y =>
    obtain ⟨p, z, hz, rfl, _, _, he⟩ := C16_radial_product _ _ _ _ _ _ _ _ _ hy
    have := pair_expo la _ _ hz
    rw [he] at this
    have h0 : (if nu_lap = 0 then z else (z.1.slice (min nu_lap nu_min) (1 + nu_max - nu_min + min nu_lap nu_min)
        (min nu_lap nu_min) (1 + nu_max - nu_min + min nu_lap nu_min), z.2)).2 = (ops.map symExpo).sum := by
      split_ifs <;> exact this
    simp only [map_ok]
    rw [h0]

/-! ### linear combinations -/

theorem LC_width (la : LinAlg) {c : ℝ} (hc : c ≠ 0) {k : Int} {lc : List (ℝ × List RadSym)}
    (hk : ∀ t ∈ lc, (t.2.map symExpo).sum = k) (lam : ℝ) (lambda_var nu_min nu_max nu_lap : Int) :
    RepRadial_LC la lc c lam lambda_var nu_min nu_max nu_lap =
      (RepRadial_LC la lc 1 lam lambda_var nu_min nu_max nu_lap).map (times (c ^ k)) := by
  have loop : ∀ (d : Dtype) (lc : List (ℝ × List RadSym)), (∀ t ∈ lc, (t.2.map symExpo).sum = k) → ∀ M : Arr,
      RepRadial_LC_loop la c lam lambda_var nu_min nu_max nu_lap d lc (times (c ^ k) M) =
        (RepRadial_LC_loop la 1 lam lambda_var nu_min nu_max nu_lap d lc M).map (times (c ^ k)) := by
    intro d lc
    induction lc with
    | nil => intro _ M; rfl
    | cons t lc ih =>
      intro hk M
      obtain ⟨x, ops⟩ := t
      have h0 : (ops.map symExpo).sum = k := hk (x, ops) List.mem_cons_self
      unfold RepRadial_LC_loop
      rw [radial_width la hc, h0]
      cases RepRadialProd la 1 ops lam lambda_var nu_min nu_max nu_lap with
      | error e => rfl
      | ok P =>
        simp only [map_ok, py_bind_ok]
        cases RepRadialProd_dtype ops lam lambda_var nu_min nu_max nu_lap with
        | error e => rfl
        | ok dP =>
          simp only [py_bind_ok]
          cases iaddCheck d dP with
          | error e => rfl
          | ok _ =>
            simp only [py_bind_ok]
            rw [times_smul, times_add]
            exact ih (fun t ht => hk t (List.mem_cons_of_mem _ ht)) _
  unfold RepRadial_LC
  cases lc with
  | nil => exact congrArg Except.ok (times_zeros _ _ _).symm
  | cons t lc =>
    obtain ⟨x, ops⟩ := t
    have h0 : (ops.map symExpo).sum = k := hk (x, ops) List.mem_cons_self
    simp only
    rw [radial_width la hc, h0]
    cases RepRadialProd la 1 ops lam lambda_var nu_min nu_max nu_lap with
    | error e => rfl
    | ok P =>
      simp only [map_ok, py_bind_ok]
      cases RepRadialProd_dtype ops lam lambda_var nu_min nu_max nu_lap with
      | error e => rfl
      | ok dP =>
        simp only [py_bind_ok]
        rw [times_smul]
        exact loop _ _ (fun t ht => hk t (List.mem_cons_of_mem _ ht)) _

/-! ### filling the matrix -/

theorem setBlock_times (c : ℝ) (M B : Arr) (r0 r1 c0 c1 : Int) :
    (times c M).setBlock r0 r1 c0 c1 (times c B) = (M.setBlock r0 r1 c0 c1 B).map (times c) := by
  unfold Arr.setBlock
  by_cases h : B.rows = sliceBound M.rows r1 - sliceBound M.rows r0 ∧ B.cols = sliceBound M.cols c1 - sliceBound M.cols c0
  · have h' : (times c B).rows = sliceBound (times c M).rows r1 - sliceBound (times c M).rows r0 ∧
        (times c B).cols = sliceBound (times c M).cols c1 - sliceBound (times c M).cols c0 := h
    simp only [if_pos h, if_pos h']
    refine congrArg Except.ok ?_
    ext i j
    · rfl
    · rfl
    · simp only [times, mul_ite]
      rfl
  · have h' : ¬ ((times c B).rows = sliceBound (times c M).rows r1 - sliceBound (times c M).rows r0 ∧
        (times c B).cols = sliceBound (times c M).cols c1 - sliceBound (times c M).cols c0) := h
    simp only [if_neg h, if_neg h']
    rfl

theorem fill_times (c : ℝ) {lam : LambdaFunction} {r n : Int} {labels : List Label} {body body' : BlockFun} {post : Arr → Arr}
    (hp : ∀ M, post (times c M) = times c (post M))
    (hb : ∀ i j f k l, body' i j f k l = (body i j f k l).map (Option.map (times c))) :
    fillBlocks lam r n labels body' post = (fillBlocks lam r n labels body post).map (times c) := by
  have write : ∀ (M : Arr) (i j : ℕ) (b : Option Arr), fillWrite r post (times c M) i j (b.map (times c)) =
      (fillWrite r post M i j b).map (times c) := by
    intro M i j b
    unfold fillWrite
    cases b with
    | none => rfl
    | some B =>
      simp only [Option.map_some]
      rw [setBlock_times]
      cases M.setBlock (i * r) (i * r + r) (j * r) (j * r + r) B with
      | error e => rfl
      | ok X =>
        simp only [map_ok, py_bind_ok, hp]
        rfl
  have inner : ∀ (j : ℕ) (init : Label) (l : Int) (is : List ℕ) (M : Arr), fillInner r labels body' post j init l is (times c M) =
      (fillInner r labels body post j init l is M).map (times c) := by
    intro j init l is
    induction is with
    | nil => intro M; rfl
    | cons i is ih =>
      intro M
      unfold fillInner
      cases pyGet labels i with
      | error e => rfl
      | ok fin =>
        simp only [py_bind_ok, hb]
        cases body i j init fin l with
        | error e => rfl
        | ok b =>
          simp only [map_ok, py_bind_ok]
          rw [write]
          cases fillWrite r post M i j b with
          | error e => rfl
          | ok X => exact ih X
  have outer : ∀ (js : List ℕ) (M : Arr), fillOuter lam r n labels body' post js (times c M) =
      (fillOuter lam r n labels body post js M).map (times c) := by
    intro js
    induction js with
    | nil => intro M; rfl
    | cons j js ih =>
      intro M
      unfold fillOuter
      cases pyGet labels j with
      | error e => rfl
      | ok init =>
        simp only [py_bind_ok]
        cases lam init.1 with
        | error e => rfl
        | ok l =>
          simp only [py_bind_ok]
          rw [inner]
          cases fillInner r labels body post j init l (List.range n.toNat) M with
          | error e => rfl
          | ok X => exact ih X
  unfold fillBlocks
  rw [← outer, times_zeros]

/-! ### the operators -/

/-- The arguments with the width 1. -/
def unitArgs (a : XArgs) : XArgs := { a with anorm := 1 }

theorem twin_width (env : XEnv) (lam : LambdaFunction) (rs : List RadSym) (ss : List OpSym) {a : XArgs} (ha : a.anorm ≠ 0) :
    RepXspace_Twin env lam rs ss a =
      (RepXspace_Twin env lam rs ss (unitArgs a)).map (times (a.anorm ^ (rs.map symExpo).sum)) := by
  unfold RepXspace_Twin
  rw [show (unitArgs a).check = a.check from rfl]
  cases a.check with
  | error e => rfl
  | ok _ =>
    simp only [py_bind_ok, show (unitArgs a).v_min = a.v_min from rfl, show (unitArgs a).v_max = a.v_max from rfl,
      show (unitArgs a).L_min = a.L_min from rfl, show (unitArgs a).L_max = a.L_max from rfl,
      show (unitArgs a).nu_min = a.nu_min from rfl, show (unitArgs a).nu_max = a.nu_max from rfl]
    cases dimSO5r3_rngVvarL a.v_min a.v_max a.L_min (some a.L_max) with
    | error e => rfl
    | ok n =>
      simp only [py_bind_ok]
      cases lbsSO5r3_rngVvarL a.v_min a.v_max a.L_min (some a.L_max) with
      | error e => rfl
      | ok labels =>
        simp only [py_bind_ok]
        cases RepSO5r3_Prod_wrk env.CG (sphItems ss) a.v_min a.v_max a.L_min a.L_max with
        | error e => rfl
        | ok S =>
          simp only [py_bind_ok]
          refine fill_times _ (fun M => rfl) ?_
          intro i j f k l
          unfold twinBlock
          cases lam k.1 with
          | error e => rfl
          | ok l' =>
            simp only [py_bind_ok]
            split_ifs with h0
            · rfl
            rw [radial_width env.la ha, show (unitArgs a).lambda_base = a.lambda_base from rfl,
              show (unitArgs a).anorm = 1 from rfl, show (unitArgs a).nu_min = a.nu_min from rfl,
              show (unitArgs a).nu_max = a.nu_max from rfl]
            cases RepRadialProd env.la 1 rs (a.lambda_base + l) (l' - l) a.nu_min a.nu_max 0 with
            | error e => rfl
            | ok R =>
              simp only [map_ok, py_bind_ok]
              rw [times_smul]
              rfl

theorem xLC_width (env : XEnv) {a : XArgs} (ha : a.anorm ≠ 0) {k : Int} {lc : List (ℝ × List RadSym)}
    (hk : ∀ t ∈ lc, (t.2.map symExpo).sum = k) (l l' n : Int) :
    xLC env a lc l l' n = (xLC env (unitArgs a) lc l l' n).map (times (a.anorm ^ k)) :=
  LC_width env.la ha hk _ _ _ _ _

/-- A block that is a multiple of a linear combination of radial operators. -/
theorem block_width {c : ℝ} {R R' : Py Arr} (h : R = R'.map (times c)) (q g : Py ℝ) (s : ℝ → ℝ) :
    (R >>= fun R => q >>= fun q => g >>= fun g => (pure (some ((R.smul (s q)).smul g)) : Py (Option Arr))) =
      (R' >>= fun R => q >>= fun q => g >>= fun g => (pure (some ((R.smul (s q)).smul g)) : Py (Option Arr))).map
        (Option.map (times c)) := by
  subst h
  cases R' with
  | error e => rfl
  | ok R =>
    simp only [map_ok, py_bind_ok]
    cases q with
    | error e => rfl
    | ok q =>
      simp only [py_bind_ok]
      cases g with
      | error e => rfl
      | ok g =>
        simp only [py_bind_ok, times_smul]
        rfl

theorem pi_width (env : XEnv) (lam : LambdaFunction) {a : XArgs} (ha : a.anorm ≠ 0) :
    RepXspace_Pi env lam a = (RepXspace_Pi env lam (unitArgs a)).map (times (a.anorm ^ (1 : Int))) := by
  unfold RepXspace_Pi
  rw [show (unitArgs a).check = a.check from rfl]
  cases a.check with
  | error e => rfl
  | ok _ =>
    simp only [py_bind_ok, show (unitArgs a).v_min = a.v_min from rfl, show (unitArgs a).v_max = a.v_max from rfl,
      show (unitArgs a).L_min = a.L_min from rfl, show (unitArgs a).L_max = a.L_max from rfl,
      show (unitArgs a).nu_min = a.nu_min from rfl, show (unitArgs a).nu_max = a.nu_max from rfl]
    cases dimSO5r3_rngVvarL a.v_min a.v_max a.L_min (some a.L_max) with
    | error e => rfl
    | ok n =>
      simp only [py_bind_ok]
      cases lbsSO5r3_rngVvarL a.v_min a.v_max a.L_min (some a.L_max) with
      | error e => rfl
      | ok labels =>
        simp only [py_bind_ok]
        cases pyAssert (n = labels.length) with
        | error e => rfl
        | ok _ =>
          simp only [py_bind_ok]
          refine fill_times _ (fun M => rfl) ?_
          intro i j f k l
          unfold piBlock
          simp only
          cases lam k.1 with
          | error e => split_ifs <;> rfl
          | ok l' =>
              simp only [py_bind_ok]
              split_ifs
              · rfl
              · exact block_width (xLC_width env ha (by simp [symExpo]) _ _ _) _ _ id
              · exact block_width (xLC_width env ha (by simp [symExpo]) _ _ _) _ _ id
              · rfl

theorem pipi_width (env : XEnv) (lam : LambdaFunction) (L : Int) {a : XArgs} (ha : a.anorm ≠ 0) :
    RepXspace_PiPi env lam L a = (RepXspace_PiPi env lam L (unitArgs a)).map (times (a.anorm ^ (2 : Int))) := by
  unfold RepXspace_PiPi
  cases require_nonnegint L with
  | error e => rfl
  | ok _ =>
    rw [show (unitArgs a).check = a.check from rfl]
    cases a.check with
    | error e => rfl
    | ok _ =>
      simp only [py_bind_ok, show (unitArgs a).v_min = a.v_min from rfl, show (unitArgs a).v_max = a.v_max from rfl,
        show (unitArgs a).L_min = a.L_min from rfl, show (unitArgs a).L_max = a.L_max from rfl,
        show (unitArgs a).nu_min = a.nu_min from rfl, show (unitArgs a).nu_max = a.nu_max from rfl]
      cases dimSO5r3_rngVvarL a.v_min a.v_max a.L_min (some a.L_max) with
      | error e => rfl
      | ok n =>
        simp only [py_bind_ok]
        cases lbsSO5r3_rngVvarL a.v_min a.v_max a.L_min (some a.L_max) with
        | error e => rfl
        | ok labels =>
          simp only [py_bind_ok]
          refine fill_times _ (fun M => by split_ifs <;> first | rfl | exact times_neg _ _) ?_
          intro i j f k l
          unfold pipiBlock
          simp only
          cases lam k.1 with
          | error e => split_ifs <;> rfl
          | ok l' =>
              simp only [py_bind_ok]
              split_ifs
              · rfl
              · exact block_width (xLC_width env ha (by simp [symExpo]) _ _ _) _ _ Neg.neg
              · exact block_width (xLC_width env ha (by simp [symExpo]) _ _ _) _ _ Neg.neg
              · exact block_width (xLC_width env ha (by simp [symExpo]) _ _ _) _ _ Neg.neg
              · rfl

theorem piqpi_width (env : XEnv) (lam : LambdaFunction) {a : XArgs} (ha : a.anorm ≠ 0) :
    RepXspace_PiqPi env lam a = (RepXspace_PiqPi env lam (unitArgs a)).map (times (a.anorm ^ (1 : Int))) := by
  unfold RepXspace_PiqPi
  rw [show (unitArgs a).check = a.check from rfl]
  cases a.check with
  | error e => rfl
  | ok _ =>
    simp only [py_bind_ok, show (unitArgs a).v_min = a.v_min from rfl, show (unitArgs a).v_max = a.v_max from rfl,
      show (unitArgs a).L_min = a.L_min from rfl, show (unitArgs a).L_max = a.L_max from rfl,
      show (unitArgs a).nu_min = a.nu_min from rfl, show (unitArgs a).nu_max = a.nu_max from rfl]
    cases dimSO5r3_rngVvarL a.v_min a.v_max a.L_min (some a.L_max) with
    | error e => rfl
    | ok n =>
      simp only [py_bind_ok]
      cases lbsSO5r3_rngVvarL a.v_min a.v_max a.L_min (some a.L_max) with
      | error e => rfl
      | ok labels =>
        simp only [py_bind_ok]
        refine fill_times _ (fun M => rfl) ?_
        intro i j f k l
        unfold piqpiBlock
        simp only
        cases lam k.1 with
        | error e => split_ifs <;> rfl
        | ok l' =>
            simp only [py_bind_ok]
            split_ifs
            · rfl
            · exact block_width (xLC_width env ha (by simp [symExpo]) _ _ _) _ _ id
            · exact block_width (xLC_width env ha (by simp [symExpo]) _ _ _) _ _ id
            · rfl
            · have h : piqpiDown env a f.1 k.1 l l' = (piqpiDown env (unitArgs a) f.1 k.1 l l').map (times (a.anorm ^ (1 : Int))) := by
                unfold piqpiDown
                rw [xLC_width env ha (k := 1) (by simp [symExpo]), xLC_width env ha (k := 1) (by simp [symExpo])]
                cases xLC env (unitArgs a) [(1, [RadSym.b, .D2b]), (-((f.1 : Int) + 1) * (f.1 + 2), [.bm])] l l' 0 with
                | error e => rfl
                | ok R =>
                  simp only [map_ok, py_bind_ok]
                  cases xLC env (unitArgs a) [(1, [RadSym.Db]), ((f.1 : Int) + 1, [.bm])] l l' 0 with
                  | error e => rfl
                  | ok R2 =>
                    simp only [map_ok, py_bind_ok]
                    cases QxQxQred_m1 f.1 with
                    | error e => rfl
                    | ok x =>
                      simp only [py_bind_ok]
                      cases QixQxQred env.CG f.1 k.1 (k.1 - 1) with
                      | error e => rfl
                      | ok y =>
                        simp only [py_bind_ok, times_smul, times_add]
                        rfl
              rw [h]
              cases piqpiDown env (unitArgs a) f.1 k.1 l l' with
              | error e => rfl
              | ok R =>
                simp only [map_ok, py_bind_ok]
                cases env.CG f (3, 1, 0) k with
                | error e => rfl
                | ok g =>
                  simp only [py_bind_ok, times_smul]
                  rfl
            · rfl

/-! ### products and sums -/

/-- The power of the width that belongs to a segment. -/
def segPower : Seg → Int
  | .twin rs _ => (rs.map symExpo).sum
  | .whole op => widthPower op

theorem segsOf_power : ∀ (ops : List OpSym) (rs : List RadSym) (ss : List OpSym),
    ((segsOf ops rs ss).map segPower).sum = (rs.map symExpo).sum + (ops.map widthPower).sum := by
  intro ops
  induction ops with
  | nil => intro rs ss; simp [segsOf, segPower]
  | cons op ops ih =>
    intro rs ss
    unfold segsOf
    cases h : op.radial? with
    | some r =>
      obtain ⟨rfl, _⟩ := radial?_some h
      simp only [ih, List.map_cons, List.sum_cons, List.map_append, List.sum_append, widthPower]
      simp; ring
    | none =>
      simp only
      split_ifs with h1 h2
      · have h0 : widthPower op = 0 := by
          rcases isSpherical_iff.1 h1 with ⟨k, rfl⟩ | rfl | rfl <;> rfl
        rw [ih, List.map_cons, List.sum_cons, h0, zero_add]
      · simp [ih, segPower]
      · push Not at h2
        rw [h2.1]
        simp [ih, segPower]

theorem seg_width (env : XEnv) (lam : LambdaFunction) {a : XArgs} (ha : a.anorm ≠ 0) (g : Seg) :
    segMat env a lam g = (segMat env (unitArgs a) lam g).map (times (a.anorm ^ segPower g)) := by
  cases g with
  | twin rs ss => exact twin_width env lam rs ss ha
  | whole op =>
    cases op with
    | Pi => exact pi_width env lam ha
    | PiPi2 => exact pipi_width env lam 2 ha
    | PiPi4 => exact pipi_width env lam 4 ha
    | PiqPi => exact piqpi_width env lam ha
    | _ => rfl

theorem segs_width (env : XEnv) (lam : LambdaFunction) {a : XArgs} (ha : a.anorm ≠ 0) (gs : List Seg) : ∀ (k : Int) (x : Arr),
    segsMat env a lam (times (a.anorm ^ k) x) gs =
      (segsMat env (unitArgs a) lam x gs).map (times (a.anorm ^ (k + (gs.map segPower).sum))) := by
  induction gs with
  | nil => intro k x; simp [segsMat]; rfl
  | cons g gs ih =>
    intro k x
    unfold segsMat
    rw [seg_width env lam ha]
    cases segMat env (unitArgs a) lam g with
    | error e => rfl
    | ok y =>
      simp only [map_ok, py_bind_ok]
      rw [times_mul, ← zpow_add₀ ha, ih, List.map_cons, List.sum_cons, add_assoc]

theorem prod_width (env : XEnv) (lam : LambdaFunction) {a : XArgs} (ha : a.anorm ≠ 0) (ops : List OpSym) :
    prodMat env a ops lam = (prodMat env (unitArgs a) ops lam).map (times (a.anorm ^ (ops.map widthPower).sum)) := by
  unfold prodMat
  rw [show (unitArgs a).check = a.check from rfl]
  cases a.check with
  | error e => rfl
  | ok _ =>
    simp only [py_bind_ok]
    have hw := segsOf_power ops [] []
    cases hg : segsOf ops [] [] with
    | nil => rfl
    | cons g gs =>
      rw [hg] at hw
      simp only
      rw [seg_width env lam ha]
      cases segMat env (unitArgs a) lam g with
      | error e => rfl
      | ok y =>
        simp only [map_ok, py_bind_ok]
        rw [segs_width env lam ha]
        rw [List.map_cons, List.sum_cons] at hw
        simp only [List.map_nil, List.sum_nil, zero_add] at hw
        rw [hw]

theorem term_width (c : ℝ) (hc : c ≠ 0) (t : Coeff × OperatorProduct) (xs : List XspaceLabel) (M : Arr) :
    scaleTerm t xs (times c M) = scaleTerm (fun x => c * t.1 x, t.2) xs M := by
  have hiff : (∃ d : ℝ, (fun x => c * t.1 x) = fun _ => d) ↔ ∃ d : ℝ, t.1 = fun _ => d := by
    constructor
    · rintro ⟨d, hd⟩
      refine ⟨d / c, funext fun x => ?_⟩
      have hx : c * t.1 x = d := congrFun hd x
      rw [← hx]; field_simp
    · rintro ⟨d, hd⟩
      exact ⟨c * d, by rw [hd]⟩
  unfold scaleTerm
  by_cases h : ∃ d : ℝ, t.1 = fun _ => d
  · rw [if_pos h, if_pos (hiff.2 h)]
    ext i j
    · rfl
    · rfl
    · show (if i < M.rows ∧ j < M.cols then (c * M.e i j) * t.1 (0, 0, 0, 0) else 0) =
        (if i < M.rows ∧ j < M.cols then M.e i j * (c * t.1 (0, 0, 0, 0)) else 0)
      split_ifs <;> ring
  · rw [if_neg h, if_neg (fun h' => h (hiff.1 h'))]
    ext i j
    · rfl
    · rfl
    · show (if i < M.rows ∧ j < M.cols then (xs.map t.1).getD j 0 * (c * M.e i j) else 0) =
        (if i < M.rows ∧ j < M.cols then (xs.map fun x => c * t.1 x).getD j 0 * M.e i j else 0)
      have : (xs.map fun x => c * t.1 x).getD j 0 = c * (xs.map t.1).getD j 0 := by
        simp only [List.getD_eq_getElem?_getD, List.getElem?_map]
        cases xs[j]? <;> simp
      rw [this]
      split_ifs <;> ring

theorem termMat_width (env : XEnv) (xs : List XspaceLabel) (lam : LambdaFunction) {a : XArgs} (ha : a.anorm ≠ 0)
    (t : Coeff × OperatorProduct) :
    termMat env xs a lam t =
      termMat env xs (unitArgs a) lam (fun x => a.anorm ^ (t.2.map widthPower).sum * t.1 x, t.2) := by
  unfold termMat
  rw [prod_width env lam ha]
  cases prodMat env (unitArgs a) t.2 lam with
  | error e => rfl
  | ok M =>
    simp only [map_ok, py_bind_ok]
    rw [term_width _ (zpow_ne_zero _ ha)]

theorem sumMat_width (env : XEnv) (xs : List XspaceLabel) (lam : LambdaFunction) {a : XArgs} (ha : a.anorm ≠ 0)
    (ts : OperatorSum) : ∀ M : Arr,
    sumMat env xs a lam ts M = sumMat env xs (unitArgs a) lam (inUnits a.anorm ts) M := by
  induction ts with
  | nil => intro M; rfl
  | cons t ts ih =>
    intro M
    show (termMat env xs a lam t >>= fun x => sumMat env xs a lam ts (M.add x)) = _
    rw [termMat_width env xs lam ha]
    simp only [ih]
    rfl

theorem allMat_width (env : XEnv) (lam : LambdaFunction) {a : XArgs} (ha : a.anorm ≠ 0) (ts : OperatorSum) :
    allMat env a ts lam = allMat env (unitArgs a) (inUnits a.anorm ts) lam := by
  cases ts with
  | nil => rfl
  | cons t ts =>
    show (lbsXspace a.nu_min a.nu_max a.v_min a.v_max a.L_min (some a.L_max) >>= fun xs =>
      termMat env xs a lam t >>= fun M => sumMat env xs a lam ts M) = _
    simp only [sumMat_width env _ lam ha, termMat_width env _ lam ha]
    rfl

theorem inUnits_inUnits (c d : ℝ) (ts : OperatorSum) : inUnits c (inUnits d ts) = inUnits (c * d) ts := by
  unfold inUnits
  rw [List.map_map]
  refine List.map_congr_left fun t _ => ?_
  simp only [Function.comp]
  rw [mul_zpow]
  simp only [mul_assoc]

theorem inUnits_tame (c : ℝ) (ts : OperatorSum) : Op_Tame (inUnits c ts) = Op_Tame ts := by
  unfold Op_Tame
  have : (inUnits c ts).map (·.2) = ts.map (·.2) := by
    unfold inUnits
    rw [List.map_map]
    rfl
  rw [this]
  simp [inUnits]

/-- The arguments with another width. -/
def otherWidth (a : XArgs) (w : ℝ) : XArgs := { a with anorm := w }

theorem allMat_other (env : XEnv) (lam : LambdaFunction) {a : XArgs} (ha : a.anorm ≠ 0) {w : ℝ} (hw : w ≠ 0) (ts : OperatorSum) :
    allMat env a ts lam = allMat env (otherWidth a w) (inUnits (a.anorm / w) ts) lam := by
  rw [allMat_width env lam ha, allMat_width env lam (a := otherWidth a w) hw, inUnits_inUnits]
  rw [show (otherWidth a w).anorm = w from rfl, mul_div_cancel₀ _ hw]
  rfl

theorem liftX_all (env : XEnv) (a : XArgs) {s : FState} (hs : FOk env s) (ts : OperatorSum) :
    ∃ s', FM.liftX (RepXspace env ts a) s = (a.check >>= fun _ => allMat env a ts s.glb.lam_fun, s') ∧
      FOk env s' ∧ s'.glb.lam_fun = s.glb.lam_fun := by
  obtain ⟨h1, h2, h3⟩ := tracks_rep env a ts s.xs hs
  refine ⟨s.afterX (RepXspace env ts a s.xs).2, ?_, ?_, rfl⟩
  · unfold FM.liftX
    rw [h1]
    rfl
  · unfold FOk
    have : (s.afterX (RepXspace env ts a s.xs).2).xs = (RepXspace env ts a s.xs).2 := by
      have h4 : (RepXspace env ts a s.xs).2.lam_fun = s.glb.lam_fun := h3
      generalize (RepXspace env ts a s.xs).2 = y at h4
      unfold FState.afterX FState.xs Glb.resetLap
      simp only []
      rw [← h4]
    rw [this]
    exact h2

theorem digTame_width (env : XEnv) (ts : OperatorSum) {a : XArgs} (ha : a.anorm ≠ 0) {w : ℝ} (hw : w ≠ 0) :
    ∀ (Ls : List Int) (s t : FState), FOk env s → FOk env t → s.glb.lam_fun = t.glb.lam_fun →
      (digTame env ts a Ls s).1 = (digTame env (inUnits (a.anorm / w) ts) (otherWidth a w) Ls t).1 := by
  intro Ls
  induction Ls with
  | nil => intro s t _ _ _; rfl
  | cons L Ls ih =>
    intro s t hs ht hl
    unfold digTame
    rw [show (otherWidth a w).v_min = a.v_min from rfl, show (otherWidth a w).v_max = a.v_max from rfl]
    cases dimSO5r3_rngV a.v_min a.v_max L with
    | error e => rfl
    | ok n =>
      simp only [st_lift_ok]
      by_cases hn : n > 0
      · simp only [if_pos hn]
        obtain ⟨s1, e1, f1, l1⟩ := liftX_all env (a.at L) hs ts
        obtain ⟨t1, e2, f2, l2⟩ := liftX_all env ((otherWidth a w).at L) ht (inUnits (a.anorm / w) ts)
        have hM := allMat_other env t.glb.lam_fun (a := a.at L) ha hw ts
        rw [show (a.at L).anorm = a.anorm from rfl, show otherWidth (a.at L) w = (otherWidth a w).at L from rfl] at hM
        rw [hl, hM, show (a.at L).check = ((otherWidth a w).at L).check from rfl] at e1
        rw [st_bind, st_bind, e1, e2]
        cases ((otherWidth a w).at L).check >>= fun _ => allMat env ((otherWidth a w).at L) (inUnits (a.anorm / w) ts) t.glb.lam_fun with
        | error e => rfl
        | ok M =>
          simp only
          cases Eigenlist env.la M with
          | error e => rfl
          | ok r =>
            simp only [st_lift_ok]
            have := ih s1 t1 f1 f2 (by rw [l1, l2, hl])
            rw [st_bind, st_bind]
            rcases hx : digTame env ts a Ls s1 with ⟨x, s2⟩
            rcases hy : digTame env (inUnits (a.anorm / w) ts) (otherWidth a w) Ls t1 with ⟨y, t2⟩
            rw [hx, hy] at this
            simp only at this
            subst this
            cases x <;> rfl
      · simp only [if_neg hn]
        exact ih s t hs ht hl

theorem digUntame_width (la : LinAlg) (a : XArgs) (w : ℝ) (M : Arr) (d : Int) : ∀ (Ls : List Int) (k : Int),
    digUntame la a M d Ls k = digUntame la (otherWidth a w) M d Ls k := by
  intro Ls
  induction Ls with
  | nil => intro k; rfl
  | cons L Ls ih =>
    intro k
    unfold digUntame
    simp only [ih]
    rfl

/-! ### the theorems -/

/-- C104: the matrix of a product of radial operators for the width `c` is that for the width 1 times the power of `c` that belongs
to the product; and one of them fails, with the same exception, exactly if the other one does. -/
theorem C104_radial (la : LinAlg) {c : ℝ} (hc : c ≠ 0) (ops : List RadSym) (lam : ℝ) (lambdaShift nu_min nu_max nu_lap : Int) :
    RepRadialProd la c ops lam lambdaShift nu_min nu_max nu_lap =
      (RepRadialProd la 1 ops lam lambdaShift nu_min nu_max nu_lap).map (times (c ^ (ops.map symExpo).sum)) :=
  radial_width la hc ops lam lambdaShift nu_min nu_max nu_lap

/-- C104: the same for a product of any operators on the whole space. -/
theorem C104_prod {env : XEnv} {a : XArgs} (ha : a.anorm ≠ 0) (ops : OperatorProduct) {s t : XState}
    (hs : MemoOk env s) (ht : MemoOk env t) (hl : s.lam_fun = t.lam_fun) :
    (RepXspace_Prod env ops a s).1 =
      (RepXspace_Prod env ops { a with anorm := 1 } t).1.map (times (a.anorm ^ (ops.map widthPower).sum)) := by
  rw [prod_eq hs, prod_eq ht, hl]
  exact prod_width env t.lam_fun ha ops

/-- C104: the representation of an operator for one width is that for any other one of the operator in other units, i.e. with
each term multiplied by the power of the ratio of the widths that belongs to it. -/
theorem C104_rep {env : XEnv} {a : XArgs} (ha : a.anorm ≠ 0) {w : ℝ} (hw : w ≠ 0) (ts : OperatorSum) {s t : XState}
    (hs : MemoOk env s) (ht : MemoOk env t) (hl : s.lam_fun = t.lam_fun) :
    (RepXspace env ts a s).1 = (RepXspace env (inUnits (a.anorm / w) ts) { a with anorm := w } t).1 := by
  rw [(tracks_rep env a ts s hs).1, (tracks_rep env _ _ t ht).1]
  simp only
  rw [allMat_other env s.lam_fun ha hw ts, hl]
  rfl

/-- C104: so the energies and the bases of eigenvectors for one width are those for any other one and the Hamiltonian in other
units; and one of the diagonalisations fails exactly if the other one does. -/
theorem C104_dig {env : XEnv} {a : XArgs} (ha : a.anorm ≠ 0) {w : ℝ} (hw : w ≠ 0) (ham : OperatorSum) {s t : FState}
    (hs : MemoOk env s.xs) (ht : MemoOk env t.xs) (hl : s.glb.lam_fun = t.glb.lam_fun) :
    (DigXspace env ham a s).1 = (DigXspace env (inUnits (a.anorm / w) ham) { a with anorm := w } t).1 := by
  show _ = (DigXspace env (inUnits (a.anorm / w) ham) (otherWidth a w) t).1
  unfold DigXspace
  rw [inUnits_tame, show (otherWidth a w).check = a.check from rfl]
  cases a.check with
  | error e => rfl
  | ok _ =>
    simp only [st_lift_ok]
    by_cases h : Op_Tame ham = true
    · simp only [if_pos h]
      exact digTame_width env ham ha hw _ s t hs ht hl
    · simp only [if_neg h]
      obtain ⟨s1, e1, _, _⟩ := liftX_all env a (s := s) hs ham
      obtain ⟨t1, e2, _, _⟩ := liftX_all env (otherWidth a w) (s := t) ht (inUnits (a.anorm / w) ham)
      rw [hl, allMat_other env _ ha hw ham, show a.check = (otherWidth a w).check from rfl] at e1
      rw [st_bind, st_bind, e1, e2]
      cases (otherWidth a w).check >>= fun _ => allMat env (otherWidth a w) (inUnits (a.anorm / w) ham) t.glb.lam_fun with
      | error e => rfl
      | ok M =>
        simp only
        rw [digUntame_width env.la a w]
        show (StPy.lift (digUntame env.la (otherWidth a w) M (dimRadial a.nu_min a.nu_max) (pyRange a.L_min (a.L_max + 1)) 1) s1).1 =
          (StPy.lift (digUntame env.la (otherWidth a w) M (dimRadial a.nu_min a.nu_max) (pyRange a.L_min (a.L_max + 1)) 1) t1).1
        cases digUntame env.la (otherWidth a w) M (dimRadial a.nu_min a.nu_max) (pyRange a.L_min (a.L_max + 1)) 1 <;> rfl

/-- What `c` becomes in other units is 0 exactly if it is. -/
theorem units_zero {k : ℝ} (hk : k ≠ 0) (c : Coeff) : kC k * c = 0 ↔ c = 0 := by
  constructor
  · intro h
    funext x
    have := congrFun h x
    exact (mul_eq_zero.1 this).resolve_left hk
  · rintro rfl
    exact mul_zero _

theorem inUnits_addTerm {u k : ℝ} (hu : u ≠ 0) (op : OperatorSum) (c d : Coeff) (p : OperatorProduct)
    (hk : k = u ^ (p.map widthPower).sum) :
    inUnits u (addTerm op c d p) = addTerm (inUnits u op) (kC k * c) (kC k * d) p := by
  have hk0 : k ≠ 0 := by rw [hk]; exact zpow_ne_zero _ hu
  unfold addTerm
  by_cases h : c = 0
  · rw [if_neg (not_not.2 h), if_neg (not_not.2 ((units_zero hk0 c).2 h))]
  · rw [if_pos h, if_pos (fun h' => h ((units_zero hk0 c).1 h'))]
    unfold inUnits
    rw [List.map_append, hk]
    rfl

/-- C104: the Hamiltonian of `ACM_Hamiltonian` in other units is that with the coefficients in these units. -/
theorem C104_hamiltonian {u : ℝ} (hu : u ≠ 0) (c11 c20 c21 c22 c23 c30 c31 c32 c33 c40 c41 c42 c43 c50 : Coeff) :
    inUnits u (ACM_Hamiltonian c11 c20 c21 c22 c23 c30 c31 c32 c33 c40 c41 c42 c43 c50) =
      ACM_Hamiltonian (kC (u ^ 2) * c11) c20 (kC (1 / u ^ 2) * c21) (kC (1 / u ^ 4) * c22) (kC (u ^ 2) * c23)
        (kC (1 / u) * c30) (kC (1 / u ^ 3) * c31) (kC (1 / u ^ 5) * c32) (kC u * c33)
        c40 (kC (1 / u ^ 2) * c41) (kC (1 / u ^ 4) * c42) (kC (u ^ 2) * c43) (kC u * c50) := by
  have one : ∀ c : Coeff, kC 1 * c = c := fun c => one_mul c
  have inv : ∀ n : ℕ, (1 : ℝ) / u ^ n = u ^ (-(n : ℤ)) := fun n => by rw [zpow_neg, zpow_natCast, one_div]
  have h11 : inUnits u (open Classical in if c11 = 0 then []
      else [(c11, [OpSym.rad .D2b]), (-c11 * (2 + SENIORITY * (SENIORITY + 3)), [.rad .bm2])]) =
      (open Classical in if kC (u ^ 2) * c11 = 0 then []
      else [(kC (u ^ 2) * c11, [OpSym.rad .D2b]), (-(kC (u ^ 2) * c11) * (2 + SENIORITY * (SENIORITY + 3)), [.rad .bm2])]) := by
    by_cases h : c11 = 0
    · rw [if_pos h, if_pos ((units_zero (pow_ne_zero 2 hu) c11).2 h)]
      rfl
    · rw [if_neg h, if_neg (fun h' => h ((units_zero (pow_ne_zero 2 hu) c11).1 h'))]
      refine List.ext_getElem (by simp [inUnits]) fun n h1 h2 => ?_
      have hn : n < 2 := h2
      have e2 : u ^ ((2 : ℤ)) = u ^ 2 := by rw [← zpow_natCast]; rfl
      interval_cases n
      · refine Prod.ext (funext fun x => ?_) rfl
        show u ^ (([OpSym.rad .D2b].map widthPower).sum) * c11 x = u ^ 2 * c11 x
        rw [show ([OpSym.rad .D2b].map widthPower).sum = 2 from rfl, e2]
      · refine Prod.ext (funext fun x => ?_) rfl
        show u ^ (([OpSym.rad .bm2].map widthPower).sum) * (-c11 x * _) = -(u ^ 2 * c11 x) * _
        rw [show ([OpSym.rad .bm2].map widthPower).sum = 2 from rfl, e2]
        ring
  unfold ACM_Hamiltonian
  simp only
  rw [inUnits_addTerm hu _ c50 _ [.PiqPi] (k := u) (zpow_one u).symm]
  rw [inUnits_addTerm hu _ c43 _ [.rad .bm2, .harm .y310, .harm .y310] (k := u ^ 2) (zpow_ofNat u 2).symm]
  rw [inUnits_addTerm hu _ c42 _ [.rad .b2, .rad .b2, .harm .y310, .harm .y310] (k := 1 / u ^ 4) (inv 4)]
  rw [inUnits_addTerm hu _ c41 _ [.rad .b2, .harm .y310, .harm .y310] (k := 1 / u ^ 2) (inv 2)]
  rw [inUnits_addTerm hu _ c40 _ [.harm .y310, .harm .y310] (k := 1) (zpow_zero u).symm]
  rw [inUnits_addTerm hu _ c33 _ [.rad .bm, .harm .y310] (k := u) (zpow_one u).symm]
  rw [inUnits_addTerm hu _ c32 _ [.rad .b2, .rad .b2, .rad .b, .harm .y310] (k := 1 / u ^ 5) (inv 5)]
  rw [inUnits_addTerm hu _ c31 _ [.rad .b2, .rad .b, .harm .y310] (k := 1 / u ^ 3) (inv 3)]
  rw [inUnits_addTerm hu _ c30 _ [.rad .b, .harm .y310] (k := 1 / u) ((one_div u).trans (zpow_neg_one u).symm)]
  rw [inUnits_addTerm hu _ c23 _ [.rad .bm2] (k := u ^ 2) (zpow_ofNat u 2).symm]
  rw [inUnits_addTerm hu _ c22 _ [.rad .b2, .rad .b2] (k := 1 / u ^ 4) (inv 4)]
  rw [inUnits_addTerm hu _ c21 _ [.rad .b2] (k := 1 / u ^ 2) (inv 2)]
  rw [inUnits_addTerm hu _ c20 _ [] (k := 1) (zpow_zero u).symm]
  rw [h11]
  simp only [one, mul_assoc]

/-- C104: so the energies of the Hamiltonian of `RWC_Ham` depend on the width only through `B`, `c2` and `chi` in units
of it. -/
theorem C104_rwc {env : XEnv} {a : XArgs} (ha : a.anorm ≠ 0) {u : ℝ} (hu : u ≠ 0) (B c1 c2 chi kappa : Coeff) {s t : FState}
    (hs : MemoOk env s.xs) (ht : MemoOk env t.xs) (hl : s.glb.lam_fun = t.glb.lam_fun) :
    (DigXspace env (RWC_Ham B c1 c2 chi kappa) a s).1 =
      (DigXspace env (RWC_Ham (kC (1 / u ^ 2) * B) c1 (kC (1 / u ^ 2) * c2) (kC (1 / u) * chi) kappa)
        { a with anorm := a.anorm / u } t).1 := by
  rw [C104_dig ha (div_ne_zero ha hu) (RWC_Ham B c1 c2 chi kappa) hs ht hl, show a.anorm / (a.anorm / u) = u by field_simp]
  have : inUnits u (RWC_Ham B c1 c2 chi kappa) =
      RWC_Ham (kC (1 / u ^ 2) * B) c1 (kC (1 / u ^ 2) * c2) (kC (1 / u) * chi) kappa := by
    unfold RWC_Ham
    rw [C104_hamiltonian hu]
    have e1 : kC (u ^ 2) * (-1 / (2 * B)) = -1 / (2 * (kC (1 / u ^ 2) * B)) := by
      funext x
      show u ^ 2 * (-1 / (2 * B x)) = -1 / (2 * (1 / u ^ 2 * B x))
      by_cases hB : B x = 0
      · simp [hB]
      · field_simp
    have e2 : kC (1 / u ^ 2) * (B * c1 / 2) = kC (1 / u ^ 2) * B * c1 / 2 := by
      funext x
      show 1 / u ^ 2 * (B x * c1 x / 2) = 1 / u ^ 2 * B x * c1 x / 2
      ring
    have e3 : kC (1 / u ^ 4) * (B * c2 / 2) = kC (1 / u ^ 2) * B * (kC (1 / u ^ 2) * c2) / 2 := by
      funext x
      show 1 / u ^ 4 * (B x * c2 x / 2) = 1 / u ^ 2 * B x * (1 / u ^ 2 * c2 x) / 2
      field_simp
    have e4 : kC (1 / u) * -chi = -(kC (1 / u) * chi) := mul_neg _ _
    simp only [e1, e2, e3, e4, mul_zero]
  rw [this]

theorem energy_units {B c1 c2 u k : ℝ} (hu : u ≠ 0) (hk : k ≠ 0) (hB : B ≠ 0) (v : ℕ) (lam : ℝ) {A : ℝ} (hA : A ≠ 0) :
    energy (B / (k * u ^ 2)) (k ^ 2 * c1) (k ^ 2 * c2 / u ^ 2) 0 v lam (A / u ^ 2) = k * energy B c1 c2 0 v lam A := by
  unfold energy
  have e1 : (1 / (2 * (B / (k * u ^ 2)))) * (A / u ^ 2 * (1 + ((v : ℝ) + 3 / 2) ^ 2 / (lam - 1))) =
      k * ((1 / (2 * B)) * (A * (1 + ((v : ℝ) + 3 / 2) ^ 2 / (lam - 1)))) := by
    generalize 1 + ((v : ℝ) + 3 / 2) ^ 2 / (lam - 1) = z
    field_simp
  have e2 : (B / (k * u ^ 2) / 2) * (k ^ 2 * c1 * (lam / (A / u ^ 2)) + k ^ 2 * c2 / u ^ 2 * (lam * (lam + 1) / (A / u ^ 2) ^ 2)) =
      k * ((B / 2) * (c1 * (lam / A) + c2 * (lam * (lam + 1) / A ^ 2))) := by
    field_simp
  rw [e1, e2]
  ring

theorem lamOf_units {c1 c2 u k : ℝ} (hu : u ≠ 0) (hk : k ≠ 0) (h2 : c2 ≠ 0) (v : ℕ) (A : ℝ) :
    lamOf (k ^ 2 * c1) (k ^ 2 * c2 / u ^ 2) v (A / u ^ 2) = lamOf c1 c2 v A := by
  unfold lamOf
  have hm : max 0 (-(k ^ 2 * c1) / (2 * (k ^ 2 * c2 / u ^ 2))) = u ^ 2 * max 0 (-c1 / (2 * c2)) := by
    rw [show -(k ^ 2 * c1) / (2 * (k ^ 2 * c2 / u ^ 2)) = u ^ 2 * (-c1 / (2 * c2)) by field_simp]
    rw [mul_max_of_nonneg _ _ (by positivity), mul_zero]
  rw [hm, show A / u ^ 2 * (u ^ 2 * max 0 (-c1 / (2 * c2))) = A * max 0 (-c1 / (2 * c2)) by field_simp]

/-- C104: the width that `RWC_alam` finds is a length, too: it changes with the unit of length (`u`) and not with that of energy
(`k`), and lambda is a pure number. -/
theorem C104_alam {sv : Solver} (hsv : SolverOk sv) {B c1 c2 u k : ℝ} (hB : 0 < B) (h2 : 0 < c2) (hu : 0 < u) (hk : 0 < k)
    (v : ℕ) {fuel fuel' : ℕ} {a lam a' lam' : ℝ} (h : RWC_alam sv fuel B c1 c2 v = some (.ok (a, lam)))
    (h' : RWC_alam sv fuel' (B / (k * u ^ 2)) (k ^ 2 * c1) (k ^ 2 * c2 / u ^ 2) v = some (.ok (a', lam'))) :
    a' = a / u ∧ lam' = lam := by
  have hB' : 0 < B / (k * u ^ 2) := by positivity
  have h2' : 0 < k ^ 2 * c2 / u ^ 2 := by positivity
  rcases lt_or_ge c1 0 with h1 | h1
  · have h1' : k ^ 2 * c1 < 0 := mul_neg_of_pos_of_neg (by positivity) h1
    obtain ⟨p1, p2, p3⟩ := C74_neg_partial hsv 0 hB h1 h2 v h
    obtain ⟨q1, q2, q3⟩ := C74_neg_partial hsv 0 hB' h1' h2' v h'
    have ha : a' = a / u := by
      by_contra hne
      have r1 := q3 (a / u) (by positivity) (Ne.symm hne)
      have r2 := p3 (a' * u) (by positivity) (fun hh => hne (by rw [← hh]; field_simp))
      rw [q2, div_pow, lamOf_units hu.ne' hk.ne' h2.ne', energy_units hu.ne' hk.ne' hB.ne' v _ (by positivity)] at r1
      have e : a' ^ 2 = (a' * u) ^ 2 / u ^ 2 := by field_simp
      rw [e, lamOf_units hu.ne' hk.ne' h2.ne', energy_units hu.ne' hk.ne' hB.ne' v _ (by positivity)] at r1
      rw [p2] at r2
      nlinarith
    refine ⟨ha, ?_⟩
    rw [q2, p2, ha, div_pow, lamOf_units hu.ne' hk.ne' h2.ne']
  · have h1' : 0 ≤ k ^ 2 * c1 := by positivity
    have hv : (0 : Int) ≤ v := by positivity
    unfold RWC_alam at h h'
    rw [if_neg (by omega), if_pos h1] at h
    rw [if_neg (by omega), if_pos h1'] at h'
    injection h with h
    injection h' with h'
    obtain ⟨A, hA, hz, e⟩ := C67_clam hsv (c1 := c1) hB.ne' h2 hv
    obtain ⟨A', hA', hz', e'⟩ := C67_clam hsv (c1 := k ^ 2 * c1) hB'.ne' h2' hv
    rw [h] at e
    rw [h'] at e'
    injection e with e
    injection e with ea el
    injection e' with e'
    injection e' with ea' el'
    have hAA : A' = A / u ^ 2 := by
      refine (C67_cubic (c1 := k ^ 2 * c1) hB'.ne' h2' hv).unique ⟨hA', hz'⟩ ⟨by positivity, ?_⟩
      have : RWC1 (A / u ^ 2) (B / (k * u ^ 2)) (k ^ 2 * c1) (k ^ 2 * c2 / u ^ 2) v = RWC1 A B c1 c2 v / u ^ 6 := by
        unfold RWC1
        field_simp
      rw [this, hz, zero_div]
    refine ⟨?_, by rw [el, el']⟩
    rw [ea', ea, hAA, Real.sqrt_div hA.le, Real.sqrt_sq hu.le]

/-- C104: and so is the function that gives lambda for the other seniorities. -/
theorem C104_alam_fun {sv : Solver} (hsv : SolverOk sv) {B c1 c2 u k : ℝ} (hB : 0 < B) (h2 : 0 < c2) (hu : 0 < u) (hk : 0 < k)
    {fuel fuel' : ℕ} {a lam a' lam' : ℝ} {f f' : LambdaFunction} (h : RWC_alam_fun sv fuel B c1 c2 = some (.ok (a, lam, f)))
    (h' : RWC_alam_fun sv fuel' (B / (k * u ^ 2)) (k ^ 2 * c1) (k ^ 2 * c2 / u ^ 2) = some (.ok (a', lam', f'))) :
    a' = a / u ∧ lam' = lam ∧ f' = f := by
  unfold RWC_alam_fun at h h'
  cases hr : RWC_alam sv fuel B c1 c2 0 with
  | none => rw [hr] at h; cases h
  | some x =>
    cases x with
    | error e => rw [hr] at h; cases h
    | ok x =>
      obtain ⟨a0, lam0⟩ := x
      cases hr' : RWC_alam sv fuel' (B / (k * u ^ 2)) (k ^ 2 * c1) (k ^ 2 * c2 / u ^ 2) 0 with
      | none => rw [hr'] at h'; cases h'
      | some y =>
        cases y with
        | error e => rw [hr'] at h'; cases h'
        | ok y =>
          obtain ⟨a1, lam1⟩ := y
          obtain ⟨k1, k2⟩ := C104_alam hsv hB h2 hu hk 0 hr hr'
          rw [hr] at h
          rw [hr'] at h'
          simp only at h h'
          by_cases h1 : c1 ≥ 0
          · have h1' : k ^ 2 * c1 ≥ 0 := mul_nonneg (by positivity) h1
            rw [if_pos h1] at h
            rw [if_pos h1'] at h'
            injection h with h
            injection h with h
            injection h with e1 e2
            injection e2 with e2 e3
            injection h' with h'
            injection h' with h'
            injection h' with e1' e2'
            injection e2' with e2' e3'
            exact ⟨by rw [← e1, ← e1', k1], by rw [← e2, ← e2', k2], by rw [← e3, ← e3']⟩
          · have h1' : ¬ k ^ 2 * c1 ≥ 0 := by
              push Not at h1 ⊢
              exact mul_neg_of_pos_of_neg (by positivity) h1
            rw [if_neg h1] at h
            rw [if_neg h1'] at h'
            injection h with h
            injection h with h
            injection h with e1 e2
            injection e2 with e2 e3
            injection h' with h'
            injection h' with h'
            injection h' with e1' e2'
            injection e2' with e2' e3'
            refine ⟨by rw [← e1, ← e1', k1], by rw [← e2, ← e2', k2], ?_⟩
            rw [← e3, ← e3', k1]
            congr 2
            field_simp

/-- C104 fails for `RWC_alam36` with `c1 > 0`: in another unit of length it gives another width. -/
theorem C104_alam36_fails {B c1 u : ℝ} (c2 : ℝ) (hB : 0 < B) (h1 : 0 < c1) (hu : 0 < u) (hne : u ≠ 1) :
    ∃ a a', RWC_alam36 B c1 c2 = .ok (a, 2.5) ∧ RWC_alam36 (B / u ^ 2) c1 (c2 / u ^ 2) = .ok (a', 2.5) ∧ a' ≠ a / u := by
  have key : ∀ (D c : ℝ), 0 < D → RWC_alam36 D c1 c = .ok (Real.sqrt (Real.sqrt (D * c1 / 4)), 2.5) := by
    intro D c hD
    have hx : 0 ≤ D * c1 / 4 := by positivity
    unfold RWC_alam36
    rw [if_neg (by linarith), pySqrt_ok hx, py_bind_ok, pySqrt_ok (Real.sqrt_nonneg _), py_bind_ok]
    rfl
  have four : ∀ {x : ℝ}, 0 ≤ x → Real.sqrt (Real.sqrt x) ^ 4 = x := by
    intro x hx
    rw [show Real.sqrt (Real.sqrt x) ^ 4 = (Real.sqrt (Real.sqrt x) ^ 2) ^ 2 by ring, Real.sq_sqrt (Real.sqrt_nonneg _),
      Real.sq_sqrt hx]
  refine ⟨_, _, key B c2 hB, key _ _ (by positivity), fun h => hne ?_⟩
  have h4 := congrArg (· ^ 4) h
  rw [four (by positivity), div_pow, four (by positivity)] at h4
  have h5 : u ^ 2 = 1 := by
    field_simp at h4
    nlinarith [mul_pos hB h1]
  nlinarith

/-- The hypotheses are met by the ranges of the manual and the widths 2 and 1/3; beta^2 in the one unit is 36 times as much in the
other one, and so its coefficient is divided by 36. -/
example (env : XEnv) : ∃ (a : XArgs) (w : ℝ) (s : XState), a.anorm ≠ 0 ∧ w ≠ 0 ∧ MemoOk env s ∧
    inUnits (a.anorm / w) [(fun _ => 1, [.rad .b2])] = [(fun _ => 1 / 36, [.rad .b2])] := by
  refine ⟨⟨2, 5 / 2, 0, 5, 0, 18, 0, 6⟩, 1 / 3, XState.start lambda_sho_fun, by norm_num, by norm_num, memoOk_start _ _, ?_⟩
  unfold inUnits
  rw [List.map_singleton]
  refine congrArg (fun f => [(f, [OpSym.rad .b2])]) (funext fun _ => ?_)
  show ((2 : ℝ) / (1 / 3)) ^ ([OpSym.rad .b2].map widthPower).sum * 1 = 1 / 36
  rw [show ([OpSym.rad .b2].map widthPower).sum = -((2 : ℕ) : ℤ) from rfl, zpow_neg, zpow_natCast]
  norm_num

/-- The hypotheses of `C104_alam` are met: a solver as assumed exists, and both calls succeed. -/
example : ∃ (sv : Solver) (a lam a' lam' : ℝ), SolverOk sv ∧ RWC_alam sv 1 50 1 2 3 = some (.ok (a, lam)) ∧
    RWC_alam sv 1 (50 / (3 * 2 ^ 2)) (3 ^ 2 * 1) (3 ^ 2 * 2 / 2 ^ 2) 3 = some (.ok (a', lam')) := by
  obtain ⟨sv, hsv, _⟩ := solver_exists
  obtain ⟨A, _, _, e⟩ := C67_clam hsv (B := 50) (c1 := 1) (c2 := 2) (v := 3) (by norm_num) (by norm_num) (by norm_num)
  obtain ⟨A', _, _, e'⟩ := C67_clam hsv (B := 50 / (3 * 2 ^ 2)) (c1 := 3 ^ 2 * 1) (c2 := 3 ^ 2 * 2 / 2 ^ 2) (v := 3) (by norm_num)
    (by norm_num) (by norm_num)
  refine ⟨sv, Real.sqrt A, 2.5, Real.sqrt A', 2.5, hsv, ?_, ?_⟩
  · unfold RWC_alam
    rw [if_neg (by norm_num), if_pos (by norm_num), e]
  · unfold RWC_alam
    rw [if_neg (by norm_num), if_pos (by norm_num), e']

end Acm.Props
