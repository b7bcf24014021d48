import Verif.Lemmas.FullOps
import Verif.Lemmas.FullProd
import Verif.Props.SO5Prod
import Verif.Props.Radial
import Verif.Props.Operators

/-!
# Properties C27-C31, C35, C36: operators on the full space
-/

namespace Acm.Props

open Acm Acm.Spec

/-! ## C27 -/

/-- C27: the dimension is the number of labels. -/
theorem C27_dimension {a : XArgs} (h : LegalRanges a) :
    ∃ xs, lbsXspace a.nu_min a.nu_max a.v_min a.v_max a.L_min (some a.L_max) = .ok xs ∧
      dimXspace a.nu_min a.nu_max a.v_min a.v_max a.L_min (some a.L_max) = .ok (xs.length : Int) :=
  ⟨_, lbsXspace_ok h, by rw [dimXspace_ok h, length_xlabels]⟩

/-- C27: no label occurs twice. -/
theorem C27_distinct {a : XArgs} (h : LegalRanges a) {xs : List XspaceLabel}
    (hx : lbsXspace a.nu_min a.nu_max a.v_min a.v_max a.L_min (some a.L_max) = .ok xs) : xs.Nodup := by
  rw [lbsXspace_ok h] at hx
  injection hx with hx
  subst hx
  exact nodup_flatMap_map (pyRange_nodup _ _) (labelsV_nodup _ _ _ _)

/-- C27: the labels are those of the radial and the spherical space, combined. -/
theorem C27_members {nu_min nu_max v_min v_max L_min L_max : ℕ} (h1 : nu_min ≤ nu_max)
    (h2 : v_min ≤ v_max) (h3 : L_min ≤ L_max) {xs : List XspaceLabel}
    (hx : lbsXspace nu_min nu_max v_min v_max L_min (some (L_max : Int)) = .ok xs) (nu : Int) (s : Label) :
    (nu, s) ∈ xs ↔ ((nu_min : Int) ≤ nu ∧ nu ≤ nu_max) ∧ IsLabel v_min v_max L_min L_max s := by
  have h : LegalRanges ⟨1, 1, nu_min, nu_max, v_min, v_max, L_min, L_max⟩ := by
    unfold LegalRanges; simp only; omega
  have e := lbsXspace_ok h
  simp only at e
  rw [e] at hx
  injection hx with hx
  subst hx
  rw [← mem_labelsV_iff]
  unfold XArgs.xlabels XArgs.states lbsRadial
  simp only [List.mem_flatMap, List.mem_map, mem_pyRange, Prod.mk.injEq]
  constructor
  · rintro ⟨s', hs, nu', hn, rfl, rfl⟩
    exact ⟨by omega, hs⟩
  · rintro ⟨hn, hs⟩
    exact ⟨s, hs, nu, by omega, rfl, rfl⟩

/-- C27: the label `(nu, v, a, L)` sits at position
`(position of (v, a, L)) * (nu_max - nu_min + 1) + (nu - nu_min)`. -/
theorem C27_position {a : XArgs} (h : LegalRanges a) {xs : List XspaceLabel} {states : List Label}
    (hx : lbsXspace a.nu_min a.nu_max a.v_min a.v_max a.L_min (some a.L_max) = .ok xs)
    (hs : lbsSO5r3_rngVvarL a.v_min a.v_max a.L_min (some a.L_max) = .ok states)
    (i : ℕ) (s : Label) (hi : states[i]? = some s) (nu : Int) (h1 : a.nu_min ≤ nu) (h2 : nu ≤ a.nu_max) :
    xs[i * (a.nu_max - a.nu_min + 1).toNat + (nu - a.nu_min).toNat]? = some (nu, s) := by
  rw [lbsXspace_ok h] at hx
  injection hx with hx
  subst hx
  rw [states_ok h] at hs
  injection hs with hs
  subst hs
  have := getElem?_xlabels a i (nu - a.nu_min).toNat (by unfold XArgs.rdim; omega)
  unfold XArgs.rdim at this
  rw [this, hi]
  simp only [Option.map_some, Option.some.injEq, Prod.mk.injEq, and_true]
  omega

/-- C27: without an upper limit there is one angular momentum; illegal ranges are rejected by
both functions. -/
theorem C27_default (nu_min nu_max v_min v_max L : Int) :
    dimXspace nu_min nu_max v_min v_max L none = dimXspace nu_min nu_max v_min v_max L (some L) ∧
      lbsXspace nu_min nu_max v_min v_max L none = lbsXspace nu_min nu_max v_min v_max L (some L) :=
  ⟨rfl, rfl⟩

/-- C27: illegal ranges are rejected by both functions. -/
theorem C27_rejects {a : XArgs} (h : ¬ LegalRanges a) :
    dimXspace a.nu_min a.nu_max a.v_min a.v_max a.L_min (some a.L_max) = .error .valueError ∧
      lbsXspace a.nu_min a.nu_max a.v_min a.v_max a.L_min (some a.L_max) = .error .valueError := by
  unfold dimXspace lbsXspace
  simp only [Option.getD_some]
  by_cases h1 : 0 ≤ a.nu_min ∧ a.nu_min ≤ a.nu_max
  · rw [require_nonnegint_range_ok h1.1 h1.2, py_bind_ok, py_bind_ok]
    by_cases h2 : 0 ≤ a.v_min ∧ a.v_min ≤ a.v_max
    · have h3 : ¬ (0 ≤ a.L_min ∧ a.L_min ≤ a.L_max) := fun h3 => h ⟨h1, h2, h3⟩
      rw [require_nonnegint_range_ok h2.1 h2.2, py_bind_ok, require_nonnegint_range_err h3]
      exact ⟨rfl, rfl⟩
    · rw [require_nonnegint_range_err h2]
      refine ⟨?_, rfl⟩
      by_cases h3 : 0 ≤ a.L_min ∧ a.L_min ≤ a.L_max
      · rw [require_nonnegint_range_ok h3.1 h3.2, py_bind_ok]
        unfold dimSO5r3_rngVvarL
        simp only [dimSO5r3_rngVrngL]
        rw [require_nonnegint_range_err h2]
        rfl
      · rw [require_nonnegint_range_err h3]; rfl
  · rw [require_nonnegint_range_err h1]
    exact ⟨rfl, rfl⟩

/-- The labels of `nu = 0..1, v = 0..1, L = 0..2`: four labels, as in the documented layout. -/
example : lbsXspace 0 1 0 1 0 (some 2) = .ok [(0, 0, 1, 0), (1, 0, 1, 0), (0, 1, 1, 2), (1, 1, 1, 2)] ∧
    dimXspace 0 1 0 1 0 (some 2) = .ok 4 := by decide +kernel

/-! ## C28 -/

theorem loop_items {CG : CGFun} {v_min v_max L_min L_max : Int} (hv : 0 ≤ v_min)
    (hv2 : v_min ≤ v_max) (hL : 0 ≤ L_min) (hL2 : L_min ≤ L_max) {states : List Label}
    (hs : lbsSO5r3_rngVvarL v_min v_max L_min (some L_max) = .ok states) :
    ∀ {ys : List YSym} {P : Option Arr} {r : Option Arr}, (∀ Q, P = some Q → Square states.length Q) →
      RepSO5r3_loop CG v_min v_max L_min L_max ys P = .ok r → ∀ A, r = some A → Square states.length A := by
  intro ys
  induction ys with
  | nil =>
    intro P r hP h A hA
    injection h with h
    exact hP A (h.trans hA)
  | cons y ys ih =>
    intro P r hP h
    rw [RepSO5r3_loop] at h
    obtain ⟨M, hM, h⟩ := py_bind_eq_ok h
    have sq := item_square hv hv2 hL hL2 hs hM
    refine ih ?_ h
    intro Q hQ
    cases P with
    | none => injection hQ with hQ; exact hQ ▸ sq
    | some P =>
      injection hQ with hQ
      exact hQ ▸ square_mul (hP P rfl).1 sq.2.1

theorem sphProd_square {CG : CGFun} {a : XArgs} (h : LegalRanges a) {ys : List YSym} {S : Arr}
    (hS : RepSO5r3_Prod_wrk CG ys a.v_min a.v_max a.L_min a.L_max = .ok S) :
    Square a.states.length S := by
  unfold RepSO5r3_Prod_wrk at hS
  by_cases h0 : ys.length = 0
  · rw [if_pos h0, sphDim_ok h, py_bind_ok, Int.toNat_natCast] at hS
    injection hS with hS
    exact hS ▸ square_eye _
  · rw [if_neg h0] at hS
    obtain ⟨r, hr, hS⟩ := py_bind_eq_ok hS
    cases r with
    | none => cases hS
    | some P =>
      injection hS with hS
      subst hS
      exact loop_items h.2.1.1 h.2.1.2 h.2.2.1 h.2.2.2 (states_ok h) (fun Q hQ => by cases hQ) hr _ rfl

theorem harmonics_eq (ss : List OpSym) : (NumSO5r3_Prod (sphItems ss)).toNat = harmonics ss := by
  rw [C63_count, Int.toNat_natCast]
  induction ss with
  | nil => rfl
  | cons s ss ih =>
    unfold sphItems at ih ⊢
    rw [List.map_cons, List.countP_cons, ih]
    cases s <;> rfl

/-- C28: the matrix of a product of radial and spherical operators has, between the states
`(nu_f; s_f)` and `(nu_i; s_i)`, the element (spherical element) times (radial element for the
shift of `lambda` from `s_i` to `s_f`), and zero whenever the spherical element is zero.  The
spherical matrix carries a factor `1/(4 pi)` for each harmonic. -/
theorem C28_elements {a : XArgs} (h : LegalRanges a) (env : XEnv) (lam : LambdaFunction)
    (rs : List RadSym) (ss : List OpSym) {xs : List XspaceLabel} {states : List Label}
    (hx : lbsXspace a.nu_min a.nu_max a.v_min a.v_max a.L_min (some a.L_max) = .ok xs)
    (hs : lbsSO5r3_rngVvarL a.v_min a.v_max a.L_min (some a.L_max) = .ok states) {M : Arr}
    (hM : RepXspace_Twin env lam rs ss a = .ok M) :
    Square xs.length M ∧ ∃ S,
      RepSO5r3_Prod_wrk env.CG (sphItems ss) a.v_min a.v_max a.L_min a.L_max = .ok S ∧
      ∀ (p q : ℕ) (nu_f nu_i : Int) (s_f s_i : Label), xs[p]? = some (nu_f, s_f) →
        xs[q]? = some (nu_i, s_i) → ∃ (i j : ℕ) (lf li : Int), states[i]? = some s_f ∧
          states[j]? = some s_i ∧ lam s_f.1 = .ok lf ∧ lam s_i.1 = .ok li ∧
          (S.e i j = 0 → M.e p q = 0) ∧
          (S.e i j ≠ 0 → ∃ R, RepRadialProd env.la a.anorm rs (a.lambda_base + li) (lf - li)
              a.nu_min a.nu_max 0 = .ok R ∧
            M.e p q = (1 / (4 * Real.pi)) ^ harmonics ss * S.e i j *
              R.e (nu_f - a.nu_min).toNat (nu_i - a.nu_min).toNat) := by
  rw [lbsXspace_ok h] at hx
  injection hx with hx
  subst hx
  rw [states_ok h] at hs
  injection hs with hs
  subst hs
  obtain ⟨S, hS⟩ := Twin_sph h hM
  have sq := sphProd_square h hS
  rw [Twin_eq h env lam rs ss hS, fillBlocks_id (rdim_pos h)] at hM
  refine ⟨by rw [length_xlabels]; exact hM.1, S, hS, ?_⟩
  intro p q nu_f nu_i s_f s_i hp hq
  obtain ⟨i, x, rfl, hx, hi, rfl⟩ := xlabels_split hp
  obtain ⟨j, y, rfl, hy, hj, rfl⟩ := xlabels_split hq
  have hi' := (List.getElem?_eq_some_iff.1 hi).1
  have hj' := (List.getElem?_eq_some_iff.1 hj).1
  obtain ⟨b, ⟨init, fin, li, g1, g2, g3, g4⟩, g5, g6⟩ := hM.2 i hi' j hj'
  rw [hj] at g1
  injection g1 with g1
  subst g1
  rw [hi] at g2
  injection g2 with g2
  subst g2
  have g7 := g6 x hx y hy
  unfold twinBlock at g4
  obtain ⟨lf, k1, g4⟩ := py_bind_eq_ok g4
  simp only at g4
  have hc : 0 < Convert_red := by unfold Convert_red FourPi; positivity
  have hSe : (S.smul (Convert_red ^ (NumSO5r3_Prod (sphItems ss)).toNat)).e i j
      = S.e i j * Convert_red ^ harmonics ss := by
    rw [harmonics_eq]
    simp only [Arr.smul, Arr.of]
    rw [if_pos ⟨by rw [sq.1]; exact hi', by rw [sq.2.1]; exact hj'⟩]
  rw [hSe] at g4
  refine ⟨i, j, lf, li, hi, hj, k1, g3, ?_, ?_⟩
  · intro h0
    rw [h0, zero_mul, if_pos rfl] at g4
    injection g4 with g4
    subst g4
    exact g7
  · intro h0
    rw [if_neg (mul_ne_zero h0 (pow_ne_zero _ hc.ne'))] at g4
    obtain ⟨R, hR, g4⟩ := py_bind_eq_ok g4
    injection g4 with g4
    subst g4
    refine ⟨R, hR, ?_⟩
    obtain ⟨k2, k3⟩ := g5 _ rfl
    rw [g7]
    simp only [Arr.smul, Arr.of] at k2 k3 ⊢
    rw [if_pos ⟨by omega, by omega⟩]
    rw [show (a.nu_min + (x : Int) - a.nu_min).toNat = x by omega,
      show (a.nu_min + (y : Int) - a.nu_min).toNat = y by omega]
    unfold Convert_red FourPi
    ring

/-- C28: the matrix exists if the spherical matrix exists, `lambda` is assigned to all
seniorities, and the radial matrix exists for each non-zero spherical element. -/
theorem C28_exists {a : XArgs} (h : LegalRanges a) (env : XEnv) (hla : LinAlgOk env.la)
    (ha : a.anorm ≠ 0) (lam : LambdaFunction) (rs : List RadSym) (ss : List OpSym)
    {states : List Label} (hs : lbsSO5r3_rngVvarL a.v_min a.v_max a.L_min (some a.L_max) = .ok states)
    {S : Arr} (hS : RepSO5r3_Prod_wrk env.CG (sphItems ss) a.v_min a.v_max a.L_min a.L_max = .ok S)
    (ls : Label → Int) (hl : ∀ s ∈ states, lam s.1 = .ok (ls s))
    (hR : ∀ (i j : ℕ) (f k : Label), states[i]? = some f → states[j]? = some k → S.e i j ≠ 0 →
      ∃ R, RepRadialProd env.la a.anorm rs (a.lambda_base + ls k) (ls f - ls k) a.nu_min a.nu_max 0
        = .ok R) :
    ∃ M, RepXspace_Twin env lam rs ss a = .ok M := by
  rw [states_ok h] at hs
  injection hs with hs
  subst hs
  have sq := sphProd_square h hS
  rw [Twin_eq h env lam rs ss hS]
  have hp : KeepsShape id := fun M => ⟨rfl, rfl⟩
  have key : ∀ i j, ∃ b, (i < a.states.length → j < a.states.length →
      BodyGives lam a.states (twinBlock env lam rs
        (S.smul (Convert_red ^ (NumSO5r3_Prod (sphItems ss)).toNat)) a) i j b ∧ BlockShape a.rdim b) := by
    intro i j
    by_cases hij : i < a.states.length ∧ j < a.states.length
    swap
    · exact ⟨none, fun h1 h2 => absurd ⟨h1, h2⟩ hij⟩
    have hi := List.getElem?_eq_getElem hij.1
    have hj := List.getElem?_eq_getElem hij.2
    have hli := hl _ (List.mem_of_getElem? hi)
    have hlj := hl _ (List.mem_of_getElem? hj)
    have hSe : (S.smul (Convert_red ^ (NumSO5r3_Prod (sphItems ss)).toNat)).e i j
        = S.e i j * Convert_red ^ (NumSO5r3_Prod (sphItems ss)).toNat := by
      simp only [Arr.smul, Arr.of]
      rw [if_pos ⟨by rw [sq.1]; exact hij.1, by rw [sq.2.1]; exact hij.2⟩]
    by_cases h0 : (S.smul (Convert_red ^ (NumSO5r3_Prod (sphItems ss)).toNat)).e i j = 0
    · refine ⟨none, fun _ _ => ⟨⟨_, _, _, hj, hi, hlj, ?_⟩, fun B hB => by cases hB⟩⟩
      unfold twinBlock
      rw [hli, py_bind_ok]
      simp only
      rw [if_pos h0]
      rfl
    · have hne : S.e i j ≠ 0 := by
        intro h1
        rw [hSe, h1, zero_mul] at h0
        exact h0 rfl
      obtain ⟨R, hR⟩ := hR i j _ _ hi hj hne
      refine ⟨some (R.smul ((S.smul (Convert_red ^ (NumSO5r3_Prod (sphItems ss)).toNat)).e i j)),
        fun _ _ => ⟨⟨_, _, _, hj, hi, hlj, ?_⟩, fun B hB => ?_⟩⟩
      · unfold twinBlock
        rw [hli, py_bind_ok]
        simp only
        rw [if_neg h0, hR]
        rfl
      · injection hB with hB
        subst hB
        obtain ⟨n0, e0⟩ := Int.eq_ofNat_of_zero_le h.1.1
        obtain ⟨n1, e1⟩ := Int.eq_ofNat_of_zero_le (h.1.1.trans h.1.2)
        rw [e0, e1] at hR
        have hle := h.1.2
        have := (C17_window env.la hla a.anorm ha rs _ _ n0 n1 0 (by omega) R hR).1
        simp only [Arr.smul, Arr.of, XArgs.rdim, e0, e1]
        exact ⟨by rw [this.1]; omega, by rw [this.2.1]; omega⟩
  choose bs hbs using key
  exact ⟨_, (fillBlocks_iff (rdim_pos h) hp).2 ⟨bs, fun i hi j hj => hbs i j hi hj, rfl⟩⟩

theorem radial_empty (la : LinAlg) (anorm lam : ℝ) (h : 0 < lam) (lo hi : Int) (h1 : 0 ≤ lo) :
    RepRadialProd la anorm [] lam 0 lo hi 0 = .ok (Arr.eye (hi - lo + 1).toNat) := by
  unfold RepRadialProd RepRadial_Prod
  rw [if_neg (by linarith), if_neg (by push_cast; linarith)]
  rw [show RepRadial_Prod_plan [] 0 = .ok ([], []) by decide +kernel, py_bind_ok]
  simp only [RepRadialshfs_Prod, RepRadialshfs_loop]
  rw [min_eq_left h1, sub_zero, add_zero]
  rfl

/-- C29: the empty segment contributes the identity: the matrix of the empty product is the unit
matrix of the size of the space, provided all values of `lambda` are positive. -/
theorem C29_identity {a : XArgs} (h : LegalRanges a) (env : XEnv) (lam : LambdaFunction)
    {states : List Label} (hs : lbsSO5r3_rngVvarL a.v_min a.v_max a.L_min (some a.L_max) = .ok states)
    (ls : Label → Int) (hl : ∀ s ∈ states, lam s.1 = .ok (ls s))
    (hpos : ∀ s ∈ states, 0 < a.lambda_base + ls s) :
    ∃ n : ℕ, dimXspace a.nu_min a.nu_max a.v_min a.v_max a.L_min (some a.L_max) = .ok (n : Int) ∧
      RepXspace_Twin env lam [] [] a = .ok (Arr.eye n) := by
  refine ⟨_, dimXspace_ok h, ?_⟩
  rw [states_ok h] at hs
  injection hs with hs
  subst hs
  have hS : RepSO5r3_Prod_wrk env.CG (sphItems []) a.v_min a.v_max a.L_min a.L_max
      = .ok (Arr.eye a.states.length) := by
    unfold RepSO5r3_Prod_wrk
    rw [if_pos (show (sphItems []).length = 0 from rfl), sphDim_ok h, py_bind_ok, Int.toNat_natCast]
    rfl
  have hr := rdim_pos h
  rw [Twin_eq h env lam [] [] hS, fillBlocks_id hr, XArgs.dim]
  refine ⟨square_eye _, fun i hi j hj => ?_⟩
  have gi := List.getElem?_eq_getElem hi
  have gj := List.getElem?_eq_getElem hj
  have hli := hl _ (List.mem_of_getElem? gi)
  have hlj := hl _ (List.mem_of_getElem? gj)
  have hNum : (NumSO5r3_Prod (sphItems [])).toNat = 0 := rfl
  have he : ((Arr.eye a.states.length).smul (Convert_red ^ (NumSO5r3_Prod (sphItems [])).toNat)).e i j
      = if i = j then 1 else 0 := by
    rw [hNum]
    simp only [Arr.smul, Arr.of, Arr.eye]
    rw [if_pos ⟨hi, hj⟩, if_pos ⟨hi, hj⟩]
    simp
  have hent : ∀ x < a.rdim, ∀ y < a.rdim, (Arr.eye (a.states.length * a.rdim)).e (i * a.rdim + x)
      (j * a.rdim + y) = if i = j ∧ x = y then 1 else 0 := by
    intro x hx y hy
    have b1 : i * a.rdim + x < a.states.length * a.rdim := by
      calc i * a.rdim + x < (i + 1) * a.rdim := by rw [Nat.add_mul]; omega
        _ ≤ _ := Nat.mul_le_mul_right _ hi
    have b2 : j * a.rdim + y < a.states.length * a.rdim := by
      calc j * a.rdim + y < (j + 1) * a.rdim := by rw [Nat.add_mul]; omega
        _ ≤ _ := Nat.mul_le_mul_right _ hj
    simp only [Arr.eye, Arr.of]
    rw [if_pos ⟨b1, b2⟩]
    refine if_congr ⟨fun e => ?_, fun e => by rw [e.1, e.2]⟩ rfl rfl
    have e1 := congrArg (· / a.rdim) e
    have e2 := congrArg (· % a.rdim) e
    simp only [Nat.mul_comm _ a.rdim, Nat.mul_add_div hr, Nat.div_eq_of_lt hx, Nat.div_eq_of_lt hy,
      Nat.mul_add_mod, Nat.mod_eq_of_lt hx, Nat.mod_eq_of_lt hy] at e1 e2
    exact ⟨e1, e2⟩
  by_cases hij : i = j
  · subst hij
    refine ⟨some ((Arr.eye (a.nu_max - a.nu_min + 1).toNat).smul 1),
      ⟨_, _, _, gj, gi, hlj, ?_⟩, ?_, ?_⟩
    · unfold twinBlock
      rw [hli, py_bind_ok]
      simp only
      rw [he, if_pos rfl, if_neg one_ne_zero, sub_self,
        radial_empty _ _ _ (hpos _ (List.mem_of_getElem? gi)) _ _ h.1.1, py_bind_ok]
      rfl
    · intro B hB
      injection hB with hB
      subst hB
      exact ⟨rfl, rfl⟩
    · intro x hx y hy
      rw [hent x hx y hy]
      simp only [Arr.smul, Arr.of, Arr.eye]
      have hx' := hx
      have hy' := hy
      unfold XArgs.rdim at hx' hy'
      have hxy : x < (a.nu_max - a.nu_min + 1).toNat ∧ y < (a.nu_max - a.nu_min + 1).toNat := ⟨hx', hy'⟩
      simp only [if_pos hxy, true_and, mul_one]
  · refine ⟨none, ⟨_, _, _, gj, gi, hlj, ?_⟩, (fun B hB => by cases hB), ?_⟩
    · unfold twinBlock
      rw [hli, py_bind_ok]
      simp only
      rw [he, if_neg hij, if_pos rfl]
      rfl
    · intro x hx y hy
      rw [hent x hx y hy, if_neg (fun e => hij e.1)]

/-- The range `nu = 0..1, v = 0..1, L = 0..2` with the `lambda` of ACM and base value 5/2 meets
the hypotheses of `C29_identity` (and so those of `C28_elements` and `C28_exists`). -/
example : ∃ a : XArgs, LegalRanges a ∧ lbsSO5r3_rngVvarL a.v_min a.v_max a.L_min (some a.L_max)
      = .ok [(0, 1, 0), (1, 1, 2)] ∧
    (∀ s ∈ [((0 : Int), (1 : Int), (0 : Int)), (1, 1, 2)], lambda_acm_fun s.1 = .ok s.1) ∧
    ∀ s ∈ [((0 : Int), (1 : Int), (0 : Int)), (1, 1, 2)], (0 : ℝ) < a.lambda_base + s.1 := by
  refine ⟨⟨1, 5 / 2, 0, 1, 0, 1, 0, 2⟩, by unfold LegalRanges; simp, by decide +kernel, by decide +kernel, ?_⟩
  intro s hs
  simp only [List.mem_cons, List.not_mem_nil, or_false] at hs
  rcases hs with rfl | rfl <;> norm_num

/-! ## C29 -/

/-- C29: for each product of known operator names there is a non-empty list of segments, ending in
a (possibly empty) radial-spherical segment, such that the product code, over any
representation, evaluates and multiplies the segments from left to right; and the segments
denote the same operator as the product in every monoid in which radial and spherical operators
commute. -/
theorem C29_segments (ops : List OpSym) (hk : ∀ op ∈ ops, Known op) :
    ∃ (g : Seg) (gs : List Seg), (∃ rs ss, (g :: gs).getLast? = some (.twin rs ss)) ∧
      (∀ (σ M : Type) (A : XAlg σ M) (s : σ), xProd A ops s
        = (do let x ← g.eval A; evalSegs A x gs : StPy σ M) s) ∧
      ∀ (W : Type) [Monoid W] (R : RadSym → W) (S : OpSym → W),
        (∀ (r : RadSym) (s : OpSym), s.isSpherical = true → Commute (R r) (S s)) →
        ((g :: gs).map (Seg.word R S)).prod = (ops.map (xWord R S)).prod := by
  have hlast : ∀ (ops : List OpSym) (rs : List RadSym) (ss : List OpSym),
      ∃ rs' ss', (segsOf ops rs ss).getLast? = some (.twin rs' ss') := by
    intro ops
    induction ops with
    | nil => intro rs ss; exact ⟨rs, ss, rfl⟩
    | cons op ops ih =>
      intro rs ss
      unfold segsOf
      cases op.radial? with
      | some r => exact ih _ _
      | none =>
        simp only
        split_ifs
        · exact ih _ _
        · obtain ⟨rs', ss', e⟩ := ih [] []
          refine ⟨rs', ss', ?_⟩
          rw [List.getLast?_cons, List.getLast?_cons, e]
          rfl
        · obtain ⟨rs', ss', e⟩ := ih rs ss
          refine ⟨rs', ss', ?_⟩
          rw [List.getLast?_cons, e]
          rfl
  cases hg : segsOf ops [] [] with
  | nil => exact absurd hg (segsOf_ne_nil _ _ _)
  | cons g gs =>
    refine ⟨g, gs, hg ▸ hlast ops [] [], fun σ M A s => ?_, fun W _ R S hc => ?_⟩
    · rw [xProd_eq, hg]
      rfl
    · have := segsOf_word R S hc ops [] [] hk (by simp)
      rw [hg] at this
      simpa using this

/-- The representation of operators in a monoid. -/
def monoidAlg {W : Type} [Monoid W] (R : RadSym → W) (S : OpSym → W) : XAlg Unit W where
  twin rs ss := pure ((rs.map R).prod * (ss.map S).prod)
  pi := pure (S .Pi)
  pipi L := pure (if L = 2 then S .PiPi2 else S .PiPi4)
  piqpi := pure (S .PiqPi)
  eye := pure 1
  mul := (· * ·)

/-- C29: in every monoid in which radial and spherical operators commute, the product code
returns the product of the operators in the given order. -/
theorem C29_regrouping {W : Type} [Monoid W] (R : RadSym → W) (S : OpSym → W)
    (hc : ∀ (r : RadSym) (s : OpSym), s.isSpherical = true → Commute (R r) (S s))
    (ops : List OpSym) (hk : ∀ op ∈ ops, Known op) :
    xProd (monoidAlg R S) ops () = (.ok (ops.map (xWord R S)).prod, ()) := by
  have hev : ∀ (gs : List Seg) (x : W), (∀ op, .whole op ∈ gs → op = .Pi ∨ op = .PiPi2 ∨ op = .PiPi4 ∨
      op = .PiqPi) → evalSegs (monoidAlg R S) x gs () = (.ok (x * (gs.map (Seg.word R S)).prod), ()) := by
    intro gs
    induction gs with
    | nil => intro x _; simp [evalSegs]
    | cons g gs ih =>
      intro x hx
      have he : ∀ s, g.eval (monoidAlg R S) s = (.ok (g.word R S), s) := by
        intro s
        cases g with
        | twin rs ss => rfl
        | whole op => rcases hx op (by simp) with rfl | rfl | rfl | rfl <;> rfl
      rw [evalSegs, st_bind_ok (he _), ih _ (fun op ho => hx op (by simp [ho]))]
      simp [monoidAlg, mul_assoc]
  have hw : ∀ (ops : List OpSym) (rs : List RadSym) (ss : List OpSym), (∀ op ∈ ops, Known op) →
      ∀ op, .whole op ∈ segsOf ops rs ss → op = .Pi ∨ op = .PiPi2 ∨ op = .PiPi4 ∨ op = .PiqPi := by
    intro ops
    induction ops with
    | nil => intro rs ss _ op h; simp [segsOf] at h
    | cons o ops ih =>
      intro rs ss hk op h
      have hk' : ∀ op ∈ ops, Known op := fun o ho => hk o (by simp [ho])
      have ho : o.radial? = none → o.isSpherical = false →
          o = .Pi ∨ o = .PiPi2 ∨ o = .PiPi4 ∨ o = .PiqPi := by
        have := hk o (by simp)
        intro h1 h2
        cases o with
        | rad q => cases q <;> first | (cases h1; done) | exact absurd this (by simp [Known])
        | harm k => cases h2
        | sqLdim => cases h2
        | sqLdiv => cases h2
        | unknown n => exact absurd this (by simp [Known])
        | _ => simp
      unfold segsOf at h
      cases hr : o.radial? with
      | some r => rw [hr] at h; exact ih _ _ hk' op h
      | none =>
        rw [hr] at h
        simp only at h
        split_ifs at h with h1 h2
        · exact ih _ _ hk' op h
        · simp only [List.mem_cons, Seg.whole.injEq, reduceCtorEq, false_or] at h
          rcases h with rfl | h
          · exact ho hr (by simpa using h1)
          · exact ih _ _ hk' op h
        · simp only [List.mem_cons, Seg.whole.injEq] at h
          rcases h with rfl | h
          · exact ho hr (by simpa using h1)
          · exact ih _ _ hk' op h
  rw [xProd_eq, ← List.map_id ops]
  have hword := segsOf_word R S hc ops [] [] hk (by simp)
  have hwh := hw ops [] [] hk
  rw [List.map_id]
  cases hg : segsOf ops [] [] with
  | nil => exact absurd hg (segsOf_ne_nil _ _ _)
  | cons g gs =>
    rw [hg] at hword hwh
    have he : ∀ s, g.eval (monoidAlg R S) s = (.ok (g.word R S), s) := by
      intro s
      cases g with
      | twin rs ss => rfl
      | whole op => rcases hwh op (by simp) with rfl | rfl | rfl | rfl <;> rfl
    rw [evalAll, st_bind_ok (he _), hev gs _ (fun op ho => hwh op (by simp [ho]))]
    simp only [List.map_cons, List.prod_cons, List.map_nil, List.prod_nil, one_mul] at hword
    rw [hword]

/-- A product of radial, spherical and whole-space operators that meets the hypotheses, with its
segments. -/
example : (∀ op ∈ [OpSym.rad .b2, .sqLdim, .rad .Db, .Pi, .sqLdiv], Known op) ∧
    segsOf [OpSym.rad .b2, .sqLdim, .rad .Db, .Pi, .sqLdiv] [] []
      = [.twin [.b2, .Db] [.sqLdim], .whole .Pi, .twin [] [.sqLdiv]] := by
  refine ⟨?_, rfl⟩
  intro op h
  simp only [List.mem_cons, List.not_mem_nil, or_false] at h
  rcases h with rfl | rfl | rfl | rfl | rfl <;> simp [Known]

/-- C29: a product with an unknown name never has a representation; it raises `ValueError` if
all segments before have one. -/
theorem C29_unknown {σ M : Type} (A : XAlg σ M) (ops : List OpSym) (op : OpSym) (hop : op ∈ ops)
    (hu : ¬ Known op) (s : σ) :
    (∃ e, (xProd A ops s).1 = .error e) ∧
    ((∀ rs ss s, ∃ m s', A.twin rs ss s = (.ok m, s')) → (∀ s, ∃ m s', A.pi s = (.ok m, s')) →
      (∀ L s, ∃ m s', A.pipi L s = (.ok m, s')) → (∀ s, ∃ m s', A.piqpi s = (.ok m, s')) →
      (xProd A ops s).1 = .error .valueError) := by
  have hr : op.radial? = none := by
    cases op with
    | rad q => cases q <;> first | rfl | exact absurd trivial hu
    | unknown n => rfl
    | _ => exact absurd trivial hu
  have hs : op.isSpherical = false := by
    cases op with
    | rad q => rfl
    | unknown n => rfl
    | _ => exact absurd trivial hu
  have hmem : ∀ (ops : List OpSym) (rs : List RadSym) (ss : List OpSym), op ∈ ops →
      Seg.whole op ∈ segsOf ops rs ss := by
    intro ops
    induction ops with
    | nil => intro _ _ h; simp at h
    | cons o ops ih =>
      intro rs ss h
      unfold segsOf
      rcases List.mem_cons.1 h with rfl | h
      · rw [hr]
        simp only
        rw [if_neg (by simp [hs])]
        split_ifs <;> simp
      · cases o.radial? with
        | some r => exact ih _ _ h
        | none =>
          simp only
          split_ifs
          · exact ih _ _ h
          · simp [ih [] [] h]
          · simp [ih rs ss h]
  have hbad : ∀ s, (Seg.whole op).eval A s = (.error .valueError, s) := by
    intro s
    cases op with
    | rad q => rfl
    | unknown n => rfl
    | _ => exact absurd trivial hu
  have hev : ∀ (gs : List Seg) (x : M) (s : σ), Seg.whole op ∈ gs → ∃ e, (evalSegs A x gs s).1 = .error e := by
    intro gs
    induction gs with
    | nil => intro _ _ h; simp at h
    | cons g gs ih =>
      intro x s h
      rw [evalSegs, st_bind]
      rcases List.mem_cons.1 h with rfl | h
      · rw [hbad]; exact ⟨_, rfl⟩
      · rcases hg : g.eval A s with ⟨e | y, s'⟩
        · exact ⟨e, rfl⟩
        · exact ih _ _ h
  have hev2 : (∀ g : Seg, ∀ s, (∃ m s', g.eval A s = (.ok m, s')) ∨ ∃ s', g.eval A s = (.error .valueError, s')) →
      ∀ (gs : List Seg) (x : M) (s : σ), Seg.whole op ∈ gs → (evalSegs A x gs s).1 = .error .valueError := by
    intro hg gs
    induction gs with
    | nil => intro _ _ h; simp at h
    | cons g gs ih =>
      intro x s h
      rw [evalSegs, st_bind]
      rcases List.mem_cons.1 h with rfl | h
      · rw [hbad]
      · rcases hg g s with ⟨m, s', e⟩ | ⟨s', e⟩
        · rw [e]; exact ih _ _ h
        · rw [e]
  have hm := hmem ops [] [] hop
  rw [xProd_eq]
  cases hg : segsOf ops [] [] with
  | nil => exact absurd hg (segsOf_ne_nil _ _ _)
  | cons g gs =>
    rw [hg] at hm
    rw [evalAll, st_bind]
    refine ⟨?_, ?_⟩
    · rcases List.mem_cons.1 hm with rfl | h
      · rw [hbad]; exact ⟨_, rfl⟩
      · rcases hg : g.eval A s with ⟨e | y, s'⟩
        · exact ⟨e, rfl⟩
        · exact hev _ _ _ h
    · intro h1 h2 h3 h4
      have total : ∀ g : Seg, ∀ s, (∃ m s', g.eval A s = (.ok m, s')) ∨
          ∃ s', g.eval A s = (.error .valueError, s') := by
        intro g s
        cases g with
        | twin rs ss => exact Or.inl (h1 rs ss s)
        | whole o =>
          cases o with
          | Pi => exact Or.inl (h2 s)
          | PiPi2 => exact Or.inl (h3 2 s)
          | PiPi4 => exact Or.inl (h3 4 s)
          | PiqPi => exact Or.inl (h4 s)
          | _ => exact Or.inr ⟨s, rfl⟩
      rcases List.mem_cons.1 hm with rfl | h
      · rw [hbad]
      · rcases total g s with ⟨m, s', e⟩ | ⟨s', e⟩
        · rw [e]; exact hev2 total _ _ _ h
        · rw [e]

end Acm.Props
