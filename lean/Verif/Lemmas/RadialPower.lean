import Verif.Lemmas.RadialBanded
import Verif.Lemmas.RadialTotal

/-!
# The elementary factors of a power of beta
-/

set_option linter.unusedSectionVars false

namespace Acm
open Spec

section
variable {F : Type} [Field F] [LinearOrder F] [IsStrictOrderedRing F]

/-- The factors and the exponent collected so far. -/
def facs : Option (FormalProd F) → List (Prim × F) × Int
  | none => ([], 0)
  | some p => (p.factors, p.expo)

/-- `r` factors `beta`, each of which changes `lambda` by `e`. -/
def stepFactors (e : Int) (lam : F) : ℕ → List (Prim × F)
  | 0 => []
  | r + 1 => (.me (if e > 0 then .b_pl else .b_ml), lam + ((e * r : Int) : F)) :: stepFactors e lam r

theorem stepFactors_succ (e : Int) (lam : F) : ∀ r, stepFactors e lam (r + 1)
    = stepFactors e (lam + (e : F)) r ++ [(.me (if e > 0 then .b_pl else .b_ml), lam)]
  | 0 => by simp [stepFactors]
  | r + 1 => by
    have : lam + ((e * (r + 1 : ℕ) : Int) : F) = lam + (e : F) + ((e * r : Int) : F) := by push_cast; ring
    rw [stepFactors, stepFactors_succ e lam r, stepFactors, List.cons_append, this]

theorem update_facs {n i : ℕ} {p : FormalProd F} {acc : Option (FormalProd F)} (h1 : i = n → acc = none)
    (h2 : i ≠ n → acc.isSome) : bS_DS_update (formal F) n 0 i p acc
      = .ok ⟨p.factors ++ (facs acc).1, p.expo + (facs acc).2⟩ := by
  unfold bS_DS_update
  by_cases h : i = n
  · rw [if_pos ⟨h, le_refl _⟩, h1 h]
    simp [facs]
  · rw [if_neg (fun h' => h h'.1)]
    cases acc with
    | none => simp at h2; exact absurd h2 h
    | some a => rfl

theorem getE {z r k : ℕ} {e : Int} (h1 : z ≤ k) (h2 : k < z + r) (w : Int) (hw : w = k) :
    pyGet (List.replicate z (0 : Int) ++ List.replicate r e) w = .ok e := by
  rw [pyGet_int _ w k hw (by simp; omega), List.getElem_append_right (by simpa using h1)]
  simp

theorem getZ {z r k : ℕ} {e : Int} (h1 : k < z) (w : Int) (hw : w = k) :
    pyGet (List.replicate z (0 : Int) ++ List.replicate r e) w = .ok 0 := by
  rw [pyGet_int _ w k hw (by simp; omega), List.getElem_append_left (by simpa using h1)]
  simp

theorem loop_steps {K e : Int} {z r : ℕ} (he : e = 1 ∨ e = -1) (hK : K = z + r) : ∀ (k : ℕ) (lam : F)
    (acc : Option (FormalProd F)), k ≤ r → (k = r → acc = none) → (k ≠ r → acc.isSome) →
    ∃ acc', bS_DS_loop (formal F) K (List.replicate z 0 ++ List.replicate r e) (z + r) 0 (z + k) lam acc
      = bS_DS_loop (formal F) K (List.replicate z 0 ++ List.replicate r e) (z + r) 0 z (lam + ((e * k : Int) : F)) acc' ∧
      facs acc' = (stepFactors e lam k ++ (facs acc).1, -(k : Int) + (facs acc).2) ∧ (acc' = none ↔ k = 0 ∧ acc = none) := by
  intro k
  induction k with
  | zero => intro lam acc _ _ _; exact ⟨acc, by simp, by simp [stepFactors], by simp⟩
  | succ k ih =>
    intro lam acc hk h1 h2
    have hsel : bS_DS_select (formal F) K (List.replicate z 0 ++ List.replicate r e) (z + k + 1) lam
        = .ok (⟨[(.me (if e > 0 then .b_pl else .b_ml), lam)], 0 + -1⟩, 1) := by
      unfold bS_DS_select
      rw [getE (k := z + k) (by omega) (by omega) _ (by push_cast; ring)]
      simp only [py_bind_ok]
      rcases he with rfl | rfl
      · rw [if_pos (by norm_num), if_pos (by push_cast; omega), pyAssert_ok (by simp; omega), if_pos (by norm_num)]
        rfl
      · rw [if_neg (by norm_num), if_pos (by norm_num), if_pos (by push_cast; omega), pyAssert_ok (by simp; omega),
          if_neg (by norm_num)]
        rfl
    obtain ⟨acc', e1, e2, e3⟩ := ih (lam + (e : F))
      (some ⟨[(.me (if e > 0 then .b_pl else .b_ml), lam)] ++ (facs acc).1, 0 + -1 + (facs acc).2⟩) (by omega) (by omega)
      (by simp)
    refine ⟨acc', ?_, ?_, by rw [e3]; simp⟩
    · rw [show z + (k + 1) = (z + k) + 1 by ring, bS_DS_loop, hsel]
      simp only [py_bind_ok]
      rw [update_facs (fun h => h1 (by omega)) (fun h => h2 (by omega))]
      simp only [py_bind_ok]
      rw [getE (k := z + k) (by omega) (by omega) _ rfl]
      simp only [py_bind_ok, if_true]
      rw [e1]
      have : lam + (e : F) + ((e * k : Int) : F) = lam + ((e * (k + 1 : ℕ) : Int) : F) := by push_cast; ring
      rw [this]
    · rw [e2, stepFactors_succ]
      simp only [facs, List.append_assoc]
      congr 1
      push_cast
      ring

theorem loop_zeros {K e : Int} {z r : ℕ} (hK : K = z + r) : ∀ (k : ℕ) (lam : F)
    (acc : Option (FormalProd F)), 2 * k ≤ z → (2 * k = z + r → acc = none) → (2 * k ≠ z + r → acc.isSome) →
    ∃ acc', bS_DS_loop (formal F) K (List.replicate z 0 ++ List.replicate r e) (z + r) 0 (2 * k) lam acc
      = .ok (lam, acc') ∧
      facs acc' = (List.replicate k (.me .b2, lam) ++ (facs acc).1, -(2 * k : Int) + (facs acc).2) ∧
      (acc' = none ↔ k = 0 ∧ acc = none) := by
  intro k
  induction k with
  | zero => intro lam acc _ _ _; exact ⟨acc, by simp [bS_DS_loop], by simp, by simp⟩
  | succ k ih =>
    intro lam acc hk h1 h2
    have hsel : bS_DS_select (formal F) K (List.replicate z 0 ++ List.replicate r e) (2 * k + 1 + 1) lam
        = .ok (⟨[(.me .b2, lam)], 0 + -2⟩, 2) := by
      unfold bS_DS_select
      rw [getZ (k := 2 * k + 1) (by omega) _ (by push_cast; ring), getZ (k := 2 * k) (by omega) _ (by push_cast; ring)]
      simp only [py_bind_ok]
      rw [if_neg (by omega), if_neg (by omega), if_pos ⟨by omega, trivial⟩, if_pos (by push_cast; omega),
        pyAssert_ok (by simp; omega)]
      rfl
    obtain ⟨acc', e1, e2, e3⟩ := ih lam (some ⟨[(.me .b2, lam)] ++ (facs acc).1, 0 + -2 + (facs acc).2⟩) (by omega) (by omega)
      (by simp)
    refine ⟨acc', ?_, ?_, by rw [e3]; simp⟩
    · rw [show 2 * (k + 1) = (2 * k + 1) + 1 by ring, bS_DS_loop, hsel]
      simp only [py_bind_ok]
      rw [update_facs (fun h => h1 (by omega)) (fun h => h2 (by omega))]
      simp only [py_bind_ok]
      rw [getZ (k := 2 * k + 1) (by omega) _ rfl]
      simp only [py_bind_ok]
      rw [if_neg (by omega)]
      simp only [Int.cast_zero, add_zero]
      exact e1
    · rw [e2, List.replicate_succ']
      simp only [facs, List.append_assoc]
      congr 1
      push_cast
      ring

theorem splits_power {e : Int} {m r : ℕ} (he : e = 1 ∨ e = -1) :
    Lambda_Splits (2 * m + r) 0 (e * r) = .ok (List.replicate (2 * m) 0 ++ List.replicate r e) := by
  have hK : |(2 * m + r : Int)| = 2 * m + r := abs_of_nonneg (by positivity)
  have hR : |e * (r : Int)| = r := by rcases he with rfl | rfl <;> simp
  unfold Lambda_Splits
  rw [require_nonnegint_ok (le_refl _)]
  simp only [py_bind_ok, hK, hR]
  rw [if_neg (by omega), iquo_ok (by omega) (by omega), iquo_ok (le_refl _) (by omega)]
  simp only [py_bind_ok]
  rw [if_neg (by omega)]
  simp only [py_pure, py_bind_ok]
  have hZ : min (-((r : Int) - (2 * m + r + 0)) / 2) (0 / 2) = 0 := by omega
  rw [hZ]
  have e1 : (2 * (m : Int) + r + 0 - r - 2 * 0).toNat = 2 * m := by omega
  simp only [pyRep, mul_zero, Int.toNat_zero, List.replicate_zero, List.append_nil, Int.toNat_natCast]
  rw [show (2 * (m : Int) + r + 0 - r - 0).toNat = 2 * m by omega]
  rcases he with rfl | rfl
  · rw [if_neg (by omega)]
  · by_cases hr : r = 0
    · subst hr
      rw [if_neg (by simp)]
      simp
    · rw [if_pos (by omega)]
      simp

/-- The elementary factors of `beta^(2m+r)` with the shift `e r`, `e = 1` or `-1`. -/
theorem bS_DS_power {e : Int} {m r : ℕ} (he : e = 1 ∨ e = -1) (h0 : 0 < 2 * m + r) {lam : F} (hl : 0 < lam)
    (hl' : 0 < lam + ((e * r : Int) : F)) :
    RepRadial_bS_DS (formal F) (2 * m + r) 0 lam (e * r)
      = .ok ⟨List.replicate m (.me .b2, lam + ((e * r : Int) : F)) ++ stepFactors e lam r, -(2 * m + r)⟩ := by
  have hK : |(2 * m + r : Int)| = 2 * m + r := abs_of_nonneg (by positivity)
  unfold RepRadial_bS_DS
  rw [if_neg (by rw [not_or, not_le, not_le]; exact ⟨hl, hl'⟩), if_neg (by rintro ⟨a, b, _⟩; omega), splits_power he]
  simp only [py_bind_ok, hK, List.length_append, List.length_replicate]
  have hn : (2 * (m : Int) + r + 0).toNat = 2 * m + r := by omega
  rw [hn]
  simp only [lt_self_iff_false, if_false, List.length_append, List.length_replicate]
  rw [pyAssert_ok (by simp)]
  simp only [py_bind_ok, py_pure]
  obtain ⟨acc1, a1, a2, a3⟩ := loop_steps (F := F) (K := 2 * m + r) (z := 2 * m) (r := r) he (by push_cast; ring) r lam none
    le_rfl (fun _ => rfl) (fun h => absurd rfl h)
  obtain ⟨acc2, b1, b2, b3⟩ := loop_zeros (F := F) (K := 2 * m + r) (e := e) (z := 2 * m) (r := r) (by push_cast; ring) m
    (lam + ((e * r : Int) : F)) acc1 le_rfl (fun h => a3.2 ⟨by omega, rfl⟩) (fun h => by
      cases acc1 with
      | none => exact absurd (a3.1 rfl).1 (by omega)
      | some _ => rfl)
  rw [a1, b1]
  cases acc2 with
  | none =>
    have := b3.1 rfl
    have := (a3.1 this.2).1
    omega
  | some p =>
    simp only [py_bind_ok, bS_DS_finish]
    rw [if_neg (by omega)]
    simp only [py_pure, py_bind_ok]
    rw [if_neg (by omega)]
    rw [a2] at b2
    obtain ⟨p1, p2⟩ := p
    simp only [facs, List.append_nil, Prod.mk.injEq] at b2
    simp only [readVar, py_pure]
    rw [b2.1, b2.2]
    congr 2
    ring

/-- A power of `beta`, written with `beta^2`, `beta`, `1/beta` and `1/beta^2`. -/
theorem parse_power : ∀ (w : List RadSym), (∀ s ∈ w, s ∈ [RadSym.b, .b2, .bm, .bm2]) → ∀ K : Int,
    w.foldlM parseStep ⟨[], 0, K⟩ = .ok ⟨[], 0, K - (w.map symExpo).sum⟩
  | [], _, K => by simp
  | s :: w, h, K => by
    have hs := h s (List.mem_cons_self ..)
    have ih := parse_power w (fun t ht => h t (List.mem_cons_of_mem _ ht))
    simp only [List.mem_cons, List.not_mem_nil, or_false] at hs
    rw [List.foldlM_cons]
    rcases hs with rfl | rfl | rfl | rfl
    all_goals
      simp only [parseStep, py_pure, py_bind_ok, ih, List.map_cons, List.sum_cons, symExpo]
      congr 2
      ring

theorem plan_power {w : List RadSym} (hw : ∀ s ∈ w, s ∈ [RadSym.b, .b2, .bm, .bm2]) {e : Int} {m r : ℕ}
    (he : e = 1 ∨ e = -1) (hn : (w.map symExpo).sum = -(2 * m + r)) :
    RepRadial_Prod_plan w (e * r) = .ok (if 0 < 2 * m + r then ([.KT (2 * m + r) 0], [e * r]) else ([], [])) := by
  have hK : |(2 * m + r : Int)| = 2 * m + r := abs_of_nonneg (by positivity)
  have hR : |e * (r : Int)| = r := by rcases he with rfl | rfl <;> simp
  have hp : Parse_RadialOp_List w = .ok (if 0 < 2 * m + r then [.KT (2 * m + r) 0] else []) := by
    unfold Parse_RadialOp_List
    rw [parse_power _ (fun s hs => hw s (List.mem_reverse.1 hs)), List.map_reverse, List.sum_reverse, hn]
    simp only [py_bind_ok]
    by_cases h0 : 0 < 2 * m + r
    · rw [if_pos (by omega), if_pos h0]
      simp only [mkKTOp]
      rw [require_nonnegint_ok (le_refl _)]
      simp
    · rw [if_neg (by omega), if_neg h0]
      rfl
  unfold RepRadial_Prod_plan
  rw [hp]
  simp only [py_bind_ok]
  by_cases h0 : 0 < 2 * m + r
  · simp only [if_pos h0]
    have hl : Lambda_RadialOp_List [.KT (2 * m + r) 0] (e * r) = .ok [e * r] := by
      unfold Lambda_RadialOp_List
      simp only [List.map_cons, List.map_nil, KTSOp.maxVar, hK, List.mapM_cons, List.mapM_nil, add_zero]
      have : irem (2 * (m : Int) + r) 2 = .ok ((r : Int) % 2) := by
        rw [irem_ok (by omega) (by omega)]
        congr 1
        omega
      rw [this]
      simp only [py_bind_ok, py_pure]
      have ha : lambdaAbsList [.KT (2 * m + r) 0] (e * r) [2 * m + r] [(r : Int) % 2] = .ok [(r : Int)] := by
        unfold lambdaAbsList
        have hodd : oddinOf ((r : Int) - (2 * m + r)) [(r : Int) % 2] = 0 := by
          unfold oddinOf
          rw [if_neg]
          simp [is_odd]
        simp only [hR, List.sum_cons, List.sum_nil, add_zero, hodd]
        rw [if_neg (by omega)]
        by_cases h1 : (r : Int) < 2 * m + r
        · rw [if_pos h1]
          simp only [List.zip_cons_cons, List.zip_nil_right, lambdaFill]
          by_cases h2 : (r : Int) - r % 2 ≤ 0
          · rw [if_pos h2]
            simp only [py_pure, py_bind_ok, List.map_nil]
            rw [if_neg (by omega)]
            congr 2
            omega
          · rw [if_neg h2, iquo_ok (by omega) (by omega)]
            simp only [py_pure, py_bind_ok]
            rw [if_neg (by omega)]
            congr 2
            omega
        · rw [if_neg h1, if_neg (by omega)]
          unfold lambdaPlace
          rw [if_neg (by omega)]
          congr 2
          omega
      rw [ha]
      simp only [py_bind_ok]
      rcases he with rfl | rfl
      · rw [if_pos (by omega)]
        simp
      · by_cases hr : r = 0
        · subst hr; simp
        · rw [if_neg (by omega)]
          simp
    rw [hl]
    simp
  · have hr : r = 0 := by omega
    subst hr
    simp only [if_neg h0]
    simp [Lambda_RadialOp_List, lambdaAbsList, oddinOf, is_odd, lambdaPlace]

/-- The elementary factors that the product code uses for a power of `beta`. -/
theorem prod_power {w : List RadSym} (hw : ∀ s ∈ w, s ∈ [RadSym.b, .b2, .bm, .bm2]) {e : Int} {m r : ℕ}
    (he : e = 1 ∨ e = -1) (hn : (w.map symExpo).sum = -(2 * m + r)) {lam : F} (hl : 0 < lam)
    (hl' : 0 < lam + ((e * r : Int) : F)) (lo hi nl : Int) :
    RepRadial_Prod (fun _ _ => formal F) (fun x _ _ => x) w lam (e * r) lo hi nl
      = .ok ⟨List.replicate m (.me .b2, lam + ((e * r : Int) : F)) ++ stepFactors e lam r, -(2 * m + r)⟩ := by
  unfold RepRadial_Prod
  rw [if_neg (not_le.2 hl), if_neg (not_le.2 hl'), plan_power hw he hn]
  simp only [py_bind_ok, ite_self]
  by_cases h0 : 0 < 2 * m + r
  · rw [if_pos h0]
    simp only [RepRadialshfs_Prod, RepRadialshfs_loop, py_pure, py_bind_ok, KTSOp.representation]
    rw [bS_DS_power he h0 hl hl']
    rfl
  · have hr : r = 0 := by omega
    have hm : m = 0 := by omega
    subst hr hm
    rw [if_neg h0]
    simp [RepRadialshfs_Prod, RepRadialshfs_loop, formal, stepFactors]

end

end Acm
