import Verif.Props.Symmetric
import Verif.Props.RadialPower

/-!
# When the matrix of a power of beta is symmetric (C122)
-/

namespace Acm.Props

open Acm.Spec Acm.Spec.RadialBasis

theorem windowProd_snoc {lo hi : ℕ} (gs : List (ℕ → ℕ → ℝ)) (f : ℕ → ℕ → ℝ) {i j : ℕ} (hi' : lo ≤ i ∧ i ≤ hi) (hj : lo ≤ j ∧ j ≤ hi) :
    windowProd lo hi (gs ++ [f]) i j = ∑ k ∈ Finset.Icc lo hi, windowProd lo hi gs i k * f k j := by
  induction gs generalizing i with
  | nil =>
    have h1 : windowProd lo hi [f] i j = f i j := by
      show ∑ k ∈ Finset.Icc lo hi, f i k * (if k = j then 1 else 0) = _
      rw [Finset.sum_eq_single j]
      · simp
      · intro k _ hk; simp [hk]
      · intro h; exact absurd (Finset.mem_Icc.2 hj) h
    have h2 : ∑ k ∈ Finset.Icc lo hi, windowProd lo hi [] i k * f k j = f i j := by
      show ∑ k ∈ Finset.Icc lo hi, (if i = k then 1 else 0) * f k j = _
      rw [Finset.sum_eq_single i]
      · simp
      · intro k _ hk; simp [Ne.symm hk]
      · intro h; exact absurd (Finset.mem_Icc.2 hi') h
    rw [List.nil_append, h1, h2]
  | cons g gs ih =>
    show ∑ k ∈ Finset.Icc lo hi, g i k * windowProd lo hi (gs ++ [f]) k j = _
    rw [Finset.sum_congr rfl fun k hk => by rw [ih (Finset.mem_Icc.1 hk)]]
    show _ = ∑ k ∈ Finset.Icc lo hi, (∑ l ∈ Finset.Icc lo hi, g i l * windowProd lo hi gs l k) * f k j
    simp only [Finset.mul_sum, Finset.sum_mul]
    rw [Finset.sum_comm]
    refine Finset.sum_congr rfl fun k _ => Finset.sum_congr rfl fun l _ => by ring

theorem windowProd_symm {lo hi : ℕ} {f : ℕ → ℕ → ℝ} (hf : ∀ i j, f i j = f j i) (m : ℕ) : ∀ {i j : ℕ}, lo ≤ i ∧ i ≤ hi → lo ≤ j ∧ j ≤ hi →
    windowProd lo hi (List.replicate m f) i j = windowProd lo hi (List.replicate m f) j i := by
  induction m with
  | zero =>
    intro i j _ _
    show (if i = j then (1 : ℝ) else 0) = if j = i then 1 else 0
    simp [eq_comm]
  | succ m ih =>
    intro i j hi' hj
    have e : List.replicate (m + 1) f = List.replicate m f ++ [f] := List.replicate_succ'
    rw [show windowProd lo hi (List.replicate (m + 1) f) j i = _ from by rw [e, windowProd_snoc _ _ hj hi']]
    show ∑ k ∈ Finset.Icc lo hi, f i k * windowProd lo hi (List.replicate m f) k j = _
    refine Finset.sum_congr rfl fun k hk => ?_
    rw [hf i k, ih (Finset.mem_Icc.1 hk) hj, mul_comm]

theorem vb2_symm (lam : ℝ) (i j : ℕ) : vb2 lam i j = vb2 lam j i := by
  have h1 : vSm lam i j = vSp lam j i := rfl
  have h2 : vSm lam j i = vSp lam i j := rfl
  have h3 : vS0 lam i j = vS0 lam j i := by
    unfold vS0
    by_cases h : i = j
    · rw [h]
    · rw [if_neg h, if_neg (Ne.symm h)]
  unfold vb2
  rw [h1, h2, h3]
  ring

theorem overlap_comm {f g : ℝ → ℝ} {n : ℕ} {x x' : ℝ} (h : Overlap f (fun b => b ^ n * g b) x) (h' : Overlap g (fun b => b ^ n * f b) x') :
    x = x' := by
  rw [← h.2, ← h'.2]
  congr 1
  funext b
  ring

/-- C122: the matrices of `beta^(2m+|r|)` from `lambda` to `lambda + r` and back.  Without a change of `lambda` and if `m = 0` they are
transposes of each other.  If `lambda` changes and `m > 0` they are not, whenever the range of labels is not too short for the power. -/
theorem C122_radial (la : LinAlg) (hla : LinAlgOk la) {a lam : ℝ} (ha : 0 < a) (h : 0 < lam) (w : List RadSym) (r : Int) (m : ℕ)
    (hw : IsPower w (2 * m + |r|)) (h' : 0 < lam + r) (nu_min nu_max : ℕ) (hr : nu_min ≤ nu_max) :
    ∃ y y', RepRadialProd la a w lam r nu_min nu_max 0 = .ok y ∧ RepRadialProd la a w (lam + r) (-r) nu_min nu_max 0 = .ok y' ∧
      ((m = 0 ∨ r = 0) → ∀ f i, f ≤ nu_max - nu_min → i ≤ nu_max - nu_min → y.e f i = y'.e i f) ∧
      (m ≠ 0 → r ≠ 0 → nu_min = 0 ∧ m ≤ 2 * nu_max + 1 ∨ m ≤ nu_max - nu_min →
        ∃ f i, f ≤ nu_max - nu_min ∧ i ≤ nu_max - nu_min ∧ y.e f i ≠ y'.e i f) := by
  have hback : lam + r + ((-r : Int) : ℝ) = lam := by push_cast; ring
  have hw' : IsPower w (2 * m + |(-r)|) := by rw [abs_neg]; exact hw
  obtain ⟨y, hy, -, hel⟩ := C119_power la hla ha h w r m hw h' nu_min nu_max 0 hr
  obtain ⟨y', hy', -, hel'⟩ := C119_power la hla ha h' w (-r) m hw' (by rw [hback]; exact h) nu_min nu_max 0 hr
  have key : ∀ f i, nu_min ≤ f ∧ f ≤ nu_max → nu_min ≤ i ∧ i ≤ nu_max → ∃ x,
      (y.e (f - nu_min) (i - nu_min) = x ↔ ¬ Lost nu_min nu_max m r f i) ∧
      (y'.e (i - nu_min) (f - nu_min) = x ↔ ¬ Lost nu_min nu_max m (-r) i f) := by
    intro f i hf hi
    obtain ⟨x, k1, -, k2⟩ := hel f i hf hi
    obtain ⟨x', k1', -, k2'⟩ := hel' i f hi hf
    rw [hback, Int.natAbs_neg] at k1'
    obtain rfl := overlap_comm k1 k1'
    exact ⟨x, by simpa using k2, by simpa using k2'⟩
  refine ⟨y, y', hy, hy', ?_, fun hm hr0 hb => ?_⟩
  · rintro (rfl | rfl) f i hf hi
    · obtain ⟨x, k1, k2⟩ := key (f + nu_min) (i + nu_min) (by omega) (by omega)
      rw [Nat.add_sub_cancel, Nat.add_sub_cancel] at k1 k2
      rw [k1.2 (by unfold Lost; omega), k2.2 (by unfold Lost; omega)]
    · obtain ⟨z, hz, -, e, fs, P, -, -, hfs, -, -, -, hz'⟩ := power_window la hla ha h w 0 m hw h' nu_min nu_max 0 hr
      rw [hy] at hz
      injection hz with hz
      subst hz
      have e2 : RepRadialProd la a w (lam + (0 : Int)) (-0) nu_min nu_max 0 = .ok y := by
        rw [Int.cast_zero, add_zero, neg_zero]; exact hy
      have : y' = y := by
        have := hy'.symm.trans e2
        injection this
      subst this
      have hfs' : fs = List.replicate m (vb2 lam) := by
        rw [hfs]; simp [stepOps]
      have a1 := (hz' (f + nu_min) (i + nu_min) (by omega) (by omega)).2
      have a2 := (hz' (i + nu_min) (f + nu_min) (by omega) (by omega)).2
      rw [Nat.add_sub_cancel, Nat.add_sub_cancel] at a1 a2
      rw [a1, a2, hfs', windowProd_symm (vb2_symm lam) m (by omega) (by omega)]
  · -- a pair of labels for which one of the two elements is exact
    obtain ⟨f, i, hf, hi, c1, c2, c3⟩ : ∃ f i : ℕ, (nu_min ≤ f ∧ f ≤ nu_max) ∧ (nu_min ≤ i ∧ i ≤ nu_max) ∧ nu_max + 1 ≤ i + m ∧
        f + i + m = 2 * nu_max + 1 ∧ (0 < nu_min → nu_min + m < f + 1) := by
      by_cases hs : m ≤ nu_max - nu_min
      · exact ⟨nu_max, nu_max + 1 - m, by omega, by omega, by omega, by omega, by omega⟩
      · by_cases hs' : m ≤ nu_max + 1
        · exact ⟨nu_max, nu_max + 1 - m, by omega, by omega, by omega, by omega, by omega⟩
        · exact ⟨2 * nu_max + 1 - m, 0, by omega, by omega, by omega, by omega, by omega⟩
    rcases lt_or_gt_of_ne hr0 with h0 | h0
    · obtain ⟨x, k1, k2⟩ := key i f hi hf
      refine ⟨i - nu_min, f - nu_min, by omega, by omega, fun e => ?_⟩
      have e2 := k2.2 (by unfold Lost; omega)
      exact k1.1 (e.trans e2) (by unfold Lost; omega)
    · obtain ⟨x, k1, k2⟩ := key f i hf hi
      refine ⟨f - nu_min, i - nu_min, by omega, by omega, fun e => ?_⟩
      have e1 := k1.2 (by unfold Lost; omega)
      exact k2.1 (e.symm.trans e1) (by unfold Lost; omega)

/-- The hypotheses of `C122_radial` are met, and `beta^3` is of the second kind: at `lambda = 5/2` with one label. -/
example : ∃ la, LinAlgOk la ∧ IsPower [.b2, .b] (2 * (1 : ℕ) + |(1 : Int)|) ∧ (0 : ℝ) < 5 / 2 + (1 : Int) ∧ (0 = 0 ∧ 1 ≤ 2 * 0 + 1 ∨ 1 ≤ 0 - 0) :=
  linAlg_exists.imp fun _ h => ⟨h, ⟨[2, 1], rfl, rfl⟩, by norm_num, by omega⟩

/-- C122 on the whole space: let a power `beta^n` be multiplied by spherical operators whose matrix is symmetric and only connects states
between which the power can be formed (the change of `lambda` is at most `n` and of the same parity).  If the range of labels is not too short
for the power, the matrix of the product is symmetric exactly if every change of `lambda` is 0 or `n` in absolute value. -/
theorem C122_space {a : XArgs} (h : LegalRanges a) (hn : 0 < a.anorm) (env : XEnv) (hla : LinAlgOk env.la) (lam : LambdaFunction)
    (rs : List RadSym) (ss : List OpSym) {n : Int} (hw : IsPower rs n)
    (hlen : a.nu_min = 0 ∧ n ≤ 4 * a.nu_max + 4 ∨ n ≤ 2 * (a.nu_max - a.nu_min) + 2) {S : Arr}
    (hS : RepSO5r3_Prod_wrk env.CG (sphItems ss) a.v_min a.v_max a.L_min a.L_max = .ok S) (hsym : SymmetricOn a.states.length S)
    {ls : Int → Int} (hl : ∀ s ∈ a.states, lam s.1 = .ok (ls s.1)) (hpos : ∀ s ∈ a.states, 0 < a.lambda_base + ls s.1)
    (hpar : ∀ (i j : ℕ) (f k : Label), a.states[i]? = some f → a.states[j]? = some k → S.e i j ≠ 0 →
      ∃ m : ℕ, n = 2 * m + |ls f.1 - ls k.1|) {M : Arr} (hM : RepXspace_Twin env lam rs ss a = .ok M) :
    SymmetricOn M.rows M ↔ ∀ (i j : ℕ) (f k : Label), a.states[i]? = some f → a.states[j]? = some k → S.e i j ≠ 0 →
      ls f.1 = ls k.1 ∨ n = |ls f.1 - ls k.1| := by
  obtain ⟨sq, S', hS', hel⟩ := C28_elements h env lam rs ss (lbsXspace_ok h) (states_ok h) hM
  rw [hS] at hS'
  injection hS' with hS'
  subst hS'
  obtain ⟨⟨r1, r2⟩, -⟩ := id h
  have e1 : ((a.nu_min.toNat : ℕ) : Int) = a.nu_min := by omega
  have e2 : ((a.nu_max.toNat : ℕ) : Int) = a.nu_max := by omega
  have hc : (1 / (4 * Real.pi)) ^ harmonics ss ≠ 0 := pow_ne_zero _ (by positivity)
  -- the two radial matrices between a pair of states
  have pair : ∀ (i j : ℕ) (f k : Label), a.states[i]? = some f → a.states[j]? = some k → S.e i j ≠ 0 →
      ∃ (R R' : Arr), RepRadialProd env.la a.anorm rs (a.lambda_base + ls k.1) (ls f.1 - ls k.1) a.nu_min a.nu_max 0 = .ok R ∧
        RepRadialProd env.la a.anorm rs (a.lambda_base + ls f.1) (ls k.1 - ls f.1) a.nu_min a.nu_max 0 = .ok R' ∧
        ((∀ x y : ℕ, x ≤ a.nu_max.toNat - a.nu_min.toNat → y ≤ a.nu_max.toNat - a.nu_min.toNat → R.e x y = R'.e y x) ↔
          (ls f.1 = ls k.1 ∨ n = |ls f.1 - ls k.1|)) := by
    intro i j f k hi hj hne
    obtain ⟨m, hm⟩ := hpar i j f k hi hj hne
    have hpf := hpos f (List.mem_of_getElem? hi)
    have hpk := hpos k (List.mem_of_getElem? hj)
    have eb : a.lambda_base + (ls k.1 : ℝ) + ((ls f.1 - ls k.1 : Int) : ℝ) = a.lambda_base + ls f.1 := by push_cast; ring
    obtain ⟨y, y', hy, hy', g1, g2⟩ := C122_radial env.la hla hn hpk rs (ls f.1 - ls k.1) m (hm ▸ hw) (by rw [eb]; exact hpf) a.nu_min.toNat a.nu_max.toNat
      (by omega)
    rw [e1, e2] at hy hy'
    rw [eb, neg_sub] at hy'
    refine ⟨y, y', hy, hy', ⟨fun hT => ?_, fun hT => g1 ?_⟩⟩
    · by_contra hc
      push Not at hc
      have hm0 : m ≠ 0 := by rintro rfl; apply hc.2; rw [hm]; simp
      have hab : 0 < |ls f.1 - ls k.1| := abs_pos.2 (sub_ne_zero.2 hc.1)
      have hb : a.nu_min.toNat = 0 ∧ m ≤ 2 * a.nu_max.toNat + 1 ∨ m ≤ a.nu_max.toNat - a.nu_min.toNat := by
        clear g1 g2 hT hel hc
        generalize |ls f.1 - ls k.1| = d at hm hab
        omega
      obtain ⟨x, z, hx, hz, hxz⟩ := g2 hm0 (sub_ne_zero.2 hc.1) hb
      exact hxz (hT x z hx hz)
    · rcases hT with hT | hT
      · exact .inr (by omega)
      · exact .inl (by omega)
  have hr := rdim_pos h
  have hrd : a.rdim = a.nu_max.toNat - a.nu_min.toNat + 1 := by unfold XArgs.rdim; omega
  -- one element of the matrix
  have elem : ∀ (i j x z : ℕ) (f k : Label), a.states[i]? = some f → a.states[j]? = some k → x < a.rdim → z < a.rdim →
      (S.e i j = 0 → M.e (i * a.rdim + x) (j * a.rdim + z) = 0) ∧
      (S.e i j ≠ 0 → ∀ R, RepRadialProd env.la a.anorm rs (a.lambda_base + ls k.1) (ls f.1 - ls k.1) a.nu_min a.nu_max 0 = .ok R →
        M.e (i * a.rdim + x) (j * a.rdim + z) = (1 / (4 * Real.pi)) ^ harmonics ss * S.e i j * R.e x z) := by
    intro i j x z f k hi hj hx hz
    obtain ⟨i', j', lf, li, hi', hj', hlf, hli, g0, g1⟩ := hel (i * a.rdim + x) (j * a.rdim + z) (a.nu_min + x) (a.nu_min + z) f k
      (by rw [getElem?_xlabels a i x hx, hi]; rfl) (by rw [getElem?_xlabels a j z hz, hj]; rfl)
    obtain rfl : i = i' := states_inj hi hi'
    obtain rfl : j = j' := states_inj hj hj'
    rw [hl f (List.mem_of_getElem? hi)] at hlf
    rw [hl k (List.mem_of_getElem? hj)] at hli
    injection hlf with hlf
    injection hli with hli
    subst hlf hli
    refine ⟨g0, fun hne R hR => ?_⟩
    obtain ⟨R', hR', e⟩ := g1 hne
    rw [hR] at hR'
    injection hR' with hR'
    subst hR'
    rw [e, show (a.nu_min + (x : Int) - a.nu_min).toNat = x by omega, show (a.nu_min + (z : Int) - a.nu_min).toNat = z by omega]
  rw [sq.1, length_xlabels]
  constructor
  · intro hs i j f k hi hj hne
    obtain ⟨R, R', hR, hR', e⟩ := pair i j f k hi hj hne
    have hi' := (List.getElem?_eq_some_iff.1 hi).1
    have hj' := (List.getElem?_eq_some_iff.1 hj).1
    have e5 := hsym i hi' j hj'
    refine e.1 fun x y hx hy => ?_
    have e3 := (elem i j x y f k hi hj (by omega) (by omega)).2 hne R hR
    have e4 := (elem j i y x k f hj hi (by omega) (by omega)).2 (by rwa [← e5]) R' hR'
    have e6 := hs (i * a.rdim + x) (by unfold XArgs.dim; nlinarith) (j * a.rdim + y) (by unfold XArgs.dim; nlinarith)
    rw [e3, e4, ← e5] at e6
    exact mul_left_cancel₀ (mul_ne_zero hc hne) e6
  · intro hs p hp q hq
    obtain ⟨⟨nu, f⟩, hf⟩ : ∃ l, a.xlabels[p]? = some l := ⟨_, List.getElem?_eq_getElem (by rw [length_xlabels]; exact hp)⟩
    obtain ⟨⟨nu', k⟩, hk⟩ : ∃ l, a.xlabels[q]? = some l := ⟨_, List.getElem?_eq_getElem (by rw [length_xlabels]; exact hq)⟩
    obtain ⟨i, x, rfl, hx, hi, -⟩ := xlabels_split hf
    obtain ⟨j, y, rfl, hy, hj, -⟩ := xlabels_split hk
    have e5 := hsym i (List.getElem?_eq_some_iff.1 hi).1 j (List.getElem?_eq_some_iff.1 hj).1
    by_cases hne : S.e i j = 0
    · rw [(elem i j x y f k hi hj hx hy).1 hne, (elem j i y x k f hj hi hy hx).1 (by rw [← e5, hne])]
    · obtain ⟨R, R', hR, hR', e⟩ := pair i j f k hi hj hne
      rw [(elem i j x y f k hi hj hx hy).2 hne R hR, (elem j i y x k f hj hi hy hx).2 (by rwa [← e5]) R' hR', ← e5,
        e.2 (hs i j f k hi hj hne) x y (by omega) (by omega)]

/-- C122 for the Hamiltonians: in the basis of `lambda_acm_fun` the matrix of the term `c31 beta^3 cos(3 gamma)` and that of the term
`c32 beta^5 cos(3 gamma)` exist whenever the spherical matrix does, and are symmetric only if the spherical matrix is zero. -/
theorem C122_acm {a : XArgs} (ha : LegalRanges a) (hn : 0 < a.anorm) (h1 : 0 < a.lambda_base) (fs : FileSys) (dir : Option (List Char))
    {la : LinAlg} (hla : LinAlgOk la) {s : XState} (hs : MemoOk ⟨fileCG fs dir, la⟩ s) (hl : s.lam_fun = lambda_acm_fun) {c : ℝ} (hc : c ≠ 0)
    {ham : OperatorSum} (hham : ham = ACM_Hamiltonian (c31 := kC c) ∧ (a.nu_min = 0 ∨ a.nu_min + 1 ≤ a.nu_max) ∨
      ham = ACM_Hamiltonian (c32 := kC c) ∧ (a.nu_min = 0 ∧ 1 ≤ a.nu_max ∨ a.nu_min + 2 ≤ a.nu_max)) {S : Arr}
    (hS : RepSO5_Y_rem (fileCG fs dir) SpHarm.y310.table a.v_min a.v_max a.L_min a.L_max = .ok S) :
    ∃ M, (RepXspace ⟨fileCG fs dir, la⟩ ham a s).1 = .ok M ∧
      (SymmetricOn M.rows M ↔ ∀ i < a.states.length, ∀ j < a.states.length, S.e i j = 0) := by
  set env : XEnv := ⟨fileCG fs dir, la⟩ with henv
  obtain ⟨rs, n, hrs, hw, hn0, hlen, k, hk, hh⟩ : ∃ (rs : List RadSym) (n : ℕ), RadSym.other ∉ rs ∧ IsPower rs (2 * ((n + 1 : ℕ) : Int) + 1) ∧
      rs ≠ [] ∧ (a.nu_min = 0 ∧ (2 * ((n + 1 : ℕ) : Int) + 1) ≤ 4 * a.nu_max + 4 ∨ 2 * ((n + 1 : ℕ) : Int) + 1 ≤ 2 * (a.nu_max - a.nu_min) + 2) ∧
      ∃ k : ℝ, k ≠ 0 ∧ ham = [(kC k, rs.map .rad ++ List.replicate 1 (.harm .y310))] := by
    have hconv : Convert_310 ≠ 0 := by unfold Convert_310 FourPi; positivity
    have hkc : kC c ≠ 0 := fun h => hc (congrFun h (0, 0, 0, 0))
    have hmul : kC c * kC Convert_310 = kC (c * Convert_310) := by funext; rfl
    obtain ⟨⟨r1, r2⟩, -⟩ := id ha
    rcases hham with ⟨rfl, h⟩ | ⟨rfl, h⟩
    · exact ⟨[.b2, .b], 0, by simp, ⟨[2, 1], rfl, rfl⟩, by simp, by omega, _, mul_ne_zero hc hconv, by
        rw [← hmul]; simp [ACM_Hamiltonian, addTerm, hkc]⟩
    · exact ⟨[.b2, .b2, .b], 1, by simp, ⟨[2, 2, 1], rfl, rfl⟩, by simp, by omega, _, mul_ne_zero hc hconv, by
        rw [← hmul]; simp [ACM_Hamiltonian, addTerm, hkc]⟩
  have hS' : RepSO5r3_Prod_wrk env.CG (sphItems (List.replicate 1 (.harm .y310))) a.v_min a.v_max a.L_min a.L_max = .ok S := by
    unfold RepSO5r3_Prod_wrk
    rw [if_neg (by simp [sphItems])]
    simp only [sphItems, List.replicate_one, List.map_cons, List.map_nil, RepSO5r3_loop, RepSO5r3_item]
    rw [show RepSO5_Y_rem env.CG SpHarm.y310.table a.v_min a.v_max a.L_min a.L_max = .ok S from hS]
    rfl
  have hodd : ∀ {i j : ℕ} {f k : Label}, a.states[i]? = some f → a.states[j]? = some k → S.e i j ≠ 0 → |f.1 % 2 - k.1 % 2| = 1 := by
    intro i j f k hi hj hne
    have := Y_parity ha hS hi hj hne
    simp only [SpHarm.table] at this
    have e : f.1 % 2 - k.1 % 2 = 1 ∨ f.1 % 2 - k.1 % 2 = -1 := by omega
    rcases e with e | e <;> rw [e] <;> rfl
  have hlam : ∀ f ∈ a.states, s.lam_fun f.1 = .ok (f.1 % 2) := by
    intro f hf
    rw [hl]
    exact acm_lambda (ha.2.1.1.trans (state_v hf).1)
  have hpos : ∀ f ∈ a.states, 0 < a.lambda_base + ((f.1 % 2 : Int) : ℝ) := by
    intro f _
    have : (0 : ℝ) ≤ ((f.1 % 2 : Int) : ℝ) := by exact_mod_cast Int.emod_nonneg f.1 (by decide)
    linarith
  have e1 : ((a.nu_min.toNat : ℕ) : Int) = a.nu_min := by have := ha.1; omega
  have e2 : ((a.nu_max.toNat : ℕ) : Int) = a.nu_max := by have := ha.1; omega
  obtain ⟨P, hP⟩ := C28_exists ha env hla hn.ne' s.lam_fun rs (List.replicate 1 (.harm .y310)) (states_ok ha) hS' (fun s => s.1 % 2) hlam (by
    intro i j f k hi hj hne
    have hw' : IsPower rs (2 * ((n + 1 : ℕ) : Int) + |f.1 % 2 - k.1 % 2|) := by rw [hodd hi hj hne]; exact hw
    obtain ⟨y, hy, -⟩ := C119_power la hla hn (hpos k (List.mem_of_getElem? hj)) rs (f.1 % 2 - k.1 % 2) (n + 1) hw' (by
      have := hpos f (List.mem_of_getElem? hi)
      push_cast
      linarith) a.nu_min.toNat a.nu_max.toNat 0 (by have := ha.1; omega)
    rw [e1, e2] at hy
    exact ⟨y, hy⟩)
  have hprod : prodMat env a (rs.map .rad ++ List.replicate 1 (.harm .y310)) s.lam_fun = .ok P := by
    rw [← hP]; exact prodMat_word ha hrs 1 s.lam_fun
  obtain ⟨M, g1, g2, g3⟩ := rep_sum (f := fun _ p q => P.e p q) ha (ts := ham) (env := env) (lam := s.lam_fun) fun t ht => by
    rw [hh, List.mem_singleton] at ht
    subst ht
    exact ⟨P, hprod, fun p q _ _ => rfl⟩
  have hM : ∀ p < a.dim, ∀ q < a.dim, M.e p q = k * P.e p q := by
    intro p hp q hq
    rw [← length_xlabels] at hq
    rw [g3 p q _ hp (List.getElem?_eq_getElem hq), hh]
    simp [kC]
  have hPd : P.rows = a.dim := by
    rw [(C28_elements ha env s.lam_fun _ _ (lbsXspace_ok ha) (states_ok ha) hP).1.1, length_xlabels]
  refine ⟨M, by rw [rep_eq ha hs]; exact g1, ?_⟩
  have key := C122_space ha hn env hla s.lam_fun rs (List.replicate 1 (.harm .y310)) hw hlen hS' (sph_symm ha fs dir hS') (ls := fun v => v % 2)
    hlam hpos (fun i j f k hi hj hne => ⟨n + 1, by rw [hodd hi hj hne]⟩) hP
  rw [hPd] at key
  rw [g2.1]
  have hMP : SymmetricOn a.dim M ↔ SymmetricOn a.dim P := by
    unfold SymmetricOn
    constructor
    · intro h p hp q hq
      have := h p hp q hq
      rw [hM p hp q hq, hM q hq p hp] at this
      exact mul_left_cancel₀ hk this
    · intro h p hp q hq
      rw [hM p hp q hq, hM q hq p hp, h p hp q hq]
  rw [hMP, key]
  constructor
  · intro h i hi j hj
    by_contra hne
    have hi' := List.getElem?_eq_getElem hi
    have hj' := List.getElem?_eq_getElem hj
    have ho := hodd hi' hj' hne
    rcases h i j _ _ hi' hj' hne with h | h
    · rw [h, sub_self, abs_zero] at ho
      exact zero_ne_one ho
    · rw [ho] at h
      omega
  · intro h i j f k hi hj hne
    exact absurd (h i (List.getElem?_eq_some_iff.1 hi).1 j (List.getElem?_eq_some_iff.1 hj).1) hne

/-- The hypotheses of `C122_space` and of `C122_acm` are met, and the matrix of `beta^5 cos(3 gamma)` of that case is not symmetric: two
spherical states, two radial ones, and data files in which every coefficient is 1. -/
example : ∃ (a : XArgs) (S : Arr), LegalRanges a ∧ 0 < a.anorm ∧ 0 < a.lambda_base ∧ a.nu_min = 0 ∧ 1 ≤ a.nu_max ∧
    RepSO5_Y_rem (fileCG onesFS none) SpHarm.y310.table a.v_min a.v_max a.L_min a.L_max = .ok S ∧
    ¬ ∀ i < a.states.length, ∀ j < a.states.length, S.e i j = 0 := by
  obtain ⟨Y, m, h, h1, h2, _⟩ := two_states onesFS none onesFS_value
  unfold RepSO5r3_Prod_wrk at h
  rw [if_neg (by simp [sphItems])] at h
  simp only [sphItems, List.replicate_one, List.map_cons, List.map_nil, RepSO5r3_loop, RepSO5r3_item] at h
  cases hM : RepSO5_Y_rem (fileCG onesFS none) SpHarm.y310.table twoStates.v_min twoStates.v_max twoStates.L_min
      twoStates.L_max with
  | error e => rw [hM] at h; cases h
  | ok M =>
    rw [hM] at h
    injection h with h
    refine ⟨{ twoStates with nu_max := 1 }, M, by simp [LegalRanges, twoStates], by simp [twoStates], by norm_num [twoStates], rfl, le_refl _, hM,
      fun hz => ?_⟩
    have hst : ({ twoStates with nu_max := 1 } : XArgs).states = [(0, 1, 0), (3, 1, 0)] := by decide +kernel
    have := hz 1 (by rw [hst]; decide) 0 (by rw [hst]; decide)
    rw [h, h2] at this
    exact mul_ne_zero one_ne_zero h1.ne' this

end Acm.Props
