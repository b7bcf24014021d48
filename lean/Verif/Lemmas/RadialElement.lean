import Verif.Model.RadialElement
import Verif.Spec.RadialElement
import Verif.Lemmas.RadialDb
import Verif.Lemmas.RadialId
import Verif.Lemmas.RadialWindow
import Verif.Lemmas.RadialProd

/-!
# Lemmas for `ME_Radial`: the plan of `RepRadial_Prod` for a single operator
-/

namespace Acm
open Spec

section
variable {F M : Type} [Field F] [LinearOrder F]

theorem bS_DS_run (A : RadAlg F M) {K T : Int} {lam : F} {R : Int} {spl : List Int} {n : ℕ}
    (h : 0 < lam) (h' : 0 < lam + (R : F)) (hc : ¬ (K = 0 ∧ T = 0 ∧ is_odd R = true))
    (hs : Lambda_Splits K T R = .ok spl) (hn : (|K| + T).toNat = n) (hl : spl.length = n) :
    RepRadial_bS_DS A K T lam R = (do
      let (l, P) ← bS_DS_loop A K spl n 0 n lam none
      bS_DS_finish A n 0 l P) := by
  unfold RepRadial_bS_DS
  rw [if_neg (by simp [h, h']), if_neg hc, hs, py_bind_ok]
  simp [hn, hl, pyAssert, py_pure, py_bind_ok]

/-- The representation of an elementary operator, as `RepRadial_Prod` requests it. -/
def primRep (A : RadAlg F M) : Prim → F → Py M
  | .me m, lam => A.rep m lam
  | .idPl r, lam => A.id_pl lam r
  | .idMl r, lam => A.id_ml lam r
  | .sqrtB2, lam => A.b2_sqrt lam
  | .sqrtInvB2, lam => A.b2_sqrtInv lam

/-- What `RepRadial_Prod` does for a single operator with a closed form. -/
def DirectRun (A : RadAlg F M) (op : Option RadSym) (v : Int) (prim : Prim) (lam : F) : Prop :=
  ∃ ops shfs, RepRadial_Prod_plan (opList op) v = .ok (ops, shfs) ∧
    ∀ x, primRep A prim lam = .ok x → ∃ y p, RepRadialshfs_Prod A ops lam shfs = .ok y ∧
      Denotes A p y ∧ (p.factors = [(prim, lam)] ∨ (prim = .idPl 0 ∧ p.factors = [])) ∧
      p.expo = ((opList op).map symExpo).sum

theorem direct_KT (A : RadAlg F M) {s : RadSym} {K T v : Int} {m : RadME} {lam : F} {spl : List Int} {n : ℕ}
    (h : 0 < lam) (h' : 0 < lam + (v : F))
    (hp : RepRadial_Prod_plan [s] v = .ok ([.KT K T], [v]))
    (hc : ¬ (K = 0 ∧ T = 0 ∧ is_odd v = true))
    (hs : Lambda_Splits K T v = .ok spl) (hn : (|K| + T).toNat = n) (hl : spl.length = n)
    (hr : ∀ x, A.rep m lam = .ok x → ∃ l y, bS_DS_loop A K spl n 0 n lam none = .ok (l, some y) ∧
      ∃ e, (y = x ∧ e = 0 ∨ y = A.scale e x) ∧ e = symExpo s) (hn0 : n ≠ 0) :
    DirectRun A (some s) v (.me m) lam := by
  refine ⟨_, _, hp, fun x hx => ?_⟩
  obtain ⟨l, y, h1, e, h2, h3⟩ := hr x hx
  refine ⟨y, ⟨[(.me m, lam)], e⟩, ?_, ?_, .inl rfl, by simp [opList, h3]⟩
  · unfold RepRadialshfs_Prod RepRadialshfs_loop RepRadialshfs_loop KTSOp.representation
    simp only [py_pure, py_bind_ok]
    rw [bS_DS_run A h h' hc hs hn hl, h1]
    simp [bS_DS_finish, readVar, hn0, py_pure, py_bind_ok]
  · rcases h2 with ⟨rfl, rfl⟩ | rfl
    · exact .rep hx
    · simpa using Denotes.scale e (Denotes.rep hx)

theorem direct_S (A : RadAlg F M) {s : RadSym} {k : Int} {m : RadME} {lam : F}
    (hp : RepRadial_Prod_plan [s] 0 = .ok ([.S k], [0])) (he : symExpo s = 0)
    (hm : pyGet [RadME.Sm, RadME.S0, RadME.Sp] (k + 1) = .ok m) : DirectRun A (some s) 0 (.me m) lam := by
  refine ⟨_, _, hp, fun x hx => ⟨x, ⟨[(.me m, lam)], 0⟩, ?_, .rep hx, .inl rfl, by simp [opList, he]⟩⟩
  simp only [primRep] at hx
  unfold RepRadialshfs_Prod RepRadialshfs_loop RepRadialshfs_loop KTSOp.representation
  simp only [py_pure, py_bind_ok, ne_eq, not_true_eq_false, if_false, hm, hx]

theorem plan_id {v : Int} (hv : v ≠ 0) : RepRadial_Prod_plan [] v = .ok ([.KT 0 0], [v]) := by
  have hpos : 0 < |v| := abs_pos.2 hv
  have e : Lambda_RadialOp_List [] v = .ok [v] := by
    have e0' : oddinOf |v| [] = 0 := by unfold oddinOf; split_ifs <;> rfl
    have e1 : lambdaAbsList [] v [] [] = .ok [|v|] := by
      have h1 : ¬ |v| < 0 := by omega
      simp [lambdaAbsList, lambdaPlace, e0', hv, h1, py_pure]
    unfold Lambda_RadialOp_List
    simp only [List.map_nil, List.mapM_nil, py_pure, py_bind_ok, e1]
    rcases lt_or_gt_of_ne hv with h | h
    · rw [if_neg (by omega), abs_of_neg h]; simp
    · rw [if_pos (by omega), abs_of_pos h]
  unfold RepRadial_Prod_plan
  have e2 : Parse_RadialOp_List [] = .ok [] := rfl
  rw [e2, py_bind_ok, e, py_bind_ok, if_pos (by simp)]
  by_cases h : v > 0
  · rw [if_pos (by simpa using h)]; rfl
  · rw [if_neg (by simpa using h)]; rfl

theorem splits_id {v : Int} (hv : v ≠ 0) (he : v % 2 = 0) : Lambda_Splits 0 0 v = .ok [v] := by
  have hpos : 0 < |v| := abs_pos.2 hv
  unfold Lambda_Splits
  have e1 : require_nonnegint 0 = .ok () := by decide
  rw [e1, py_bind_ok]
  simp only [abs_zero, add_zero, sub_zero]
  rw [if_pos hpos, if_pos (by
    rcases abs_choice v with h | h <;> rw [h, is_even_iff] <;> omega)]
  have e3 : pyRep (1 : Int) 0 = [] := by decide
  rw [e3, py_pure, py_bind_ok]
  rcases lt_or_gt_of_ne hv with h | h
  · rw [if_pos h, abs_of_neg h]; simp [py_pure]
  · rw [if_neg (by omega), abs_of_pos h]; simp [py_pure]

theorem direct_id (A : RadAlg F M) {v : Int} {lam : F} (h : 0 < lam) (h' : 0 < lam + (v : F)) (he : v % 2 = 0) :
    DirectRun A none v (if 0 ≤ v then .idPl (v / 2) else .idMl (-v / 2)) lam := by
  by_cases hv : v = 0
  · subst hv
    exact ⟨[], [], by decide +kernel, fun x hx => ⟨A.eye, ⟨[], 0⟩, rfl, .eye, .inr ⟨rfl, rfl⟩, rfl⟩⟩
  refine ⟨_, _, plan_id hv, fun x hx => ⟨x, ⟨[(_, lam)], 0⟩, ?_, ?_, .inl rfl, rfl⟩⟩
  · have hb : RepRadial_bS_DS A 0 0 lam v = .ok x := by
      unfold RepRadial_bS_DS
      have hodd : ¬ (is_odd v = true) := by rw [is_odd_iff]; omega
      have hev : is_even v = true := by rw [is_even_iff]; omega
      have hev' : is_even (-v) = true := by rw [is_even_iff]; omega
      rw [if_neg (by simp [h, h']), if_neg (by simp [hodd]), splits_id hv he, py_bind_ok]
      by_cases hs : 0 ≤ v
      · rw [if_pos hs] at hx
        simp only [primRep] at hx
        have : ¬ v < 0 := by omega
        have h0 : 0 < v := by omega
        have hd : v.fdiv 2 = v / 2 := by rw [Int.fdiv_eq_ediv_of_nonneg _ (by decide)]
        simp [this, pyAssert, py_pure, py_bind_ok, bS_DS_loop, bS_DS_finish, readVar, h0, hev, hd, hx, hv]
      · rw [if_neg hs] at hx
        simp only [primRep] at hx
        have : v < 0 := by omega
        have h0 : ¬ 0 < v := by omega
        have hd : (-v).fdiv 2 = -v / 2 := by rw [Int.fdiv_eq_ediv_of_nonneg _ (by decide)]
        simp [this, pyAssert, py_pure, py_bind_ok, bS_DS_loop, bS_DS_finish, readVar, h0, hev, hd, hx, hv]
    unfold RepRadialshfs_Prod RepRadialshfs_loop RepRadialshfs_loop KTSOp.representation
    simp only [py_pure, py_bind_ok, hb]
  · split_ifs at hx ⊢ with hs
    · exact .id_pl hx
    · exact .id_ml hx

theorem direct_run (A : RadAlg F M) {op : Option RadSym} {v : Int} {prim : Prim} {lam : F}
    (h : 0 < lam) (h' : 0 < lam + (v : F)) (hc : closedForm op v = some prim) :
    DirectRun A op v prim lam := by
  unfold closedForm at hc
  split at hc <;> (try (injection hc with hc; subst hc))
  · refine direct_KT A (K := 2) (T := 0) (spl := [0, 0]) (n := 2) h h' (by decide +kernel) (by decide)
      (by decide +kernel) (by decide +kernel) rfl (fun x hx => ?_) (by decide)
    exact ⟨_, A.scale (-2) x, by simp [bS_DS_loop, bS_DS_select, bS_DS_update, pyGet, pyAssert, hx, py_pure]; rfl, _, .inr rfl, rfl⟩
  · refine direct_KT A (K := -2) (T := 0) (spl := [0, 0]) (n := 2) h h' (by decide +kernel) (by decide)
      (by decide +kernel) (by decide +kernel) rfl (fun x hx => ?_) (by decide)
    exact ⟨_, A.scale (2) x, by simp [bS_DS_loop, bS_DS_select, bS_DS_update, pyGet, pyAssert, hx, py_pure]; rfl, _, .inr rfl, rfl⟩
  · refine direct_KT A (K := 0) (T := 2) (spl := [0, 0]) (n := 2) h h' (by decide +kernel) (by decide)
      (by decide +kernel) (by decide +kernel) rfl (fun x hx => ?_) (by decide)
    exact ⟨_, A.scale (2) x, by simp [bS_DS_loop, bS_DS_select, bS_DS_update, pyGet, pyAssert, hx, py_pure]; rfl, _, .inr rfl, rfl⟩
  · refine direct_KT A (K := 1) (T := 1) (spl := [0, 0]) (n := 2) h h' (by decide +kernel) (by decide)
      (by decide +kernel) (by decide +kernel) rfl (fun x hx => ?_) (by decide)
    exact ⟨_, x, by simp [bS_DS_loop, bS_DS_select, bS_DS_update, pyGet, pyAssert, hx, py_pure]; rfl, _, .inl ⟨rfl, rfl⟩, rfl⟩
  · exact direct_S A (k := 0) (by decide +kernel) rfl (by decide)
  · exact direct_S A (k := 1) (by decide +kernel) rfl (by decide)
  · exact direct_S A (k := -1) (by decide +kernel) rfl (by decide)
  · refine direct_KT A (K := 1) (T := 0) (spl := [1]) (n := 1) h h' (by decide +kernel) (by decide)
      (by decide +kernel) (by decide +kernel) rfl (fun x hx => ?_) (by decide)
    exact ⟨_, A.scale (-1) x, by simp [bS_DS_loop, bS_DS_select, bS_DS_update, pyGet, pyAssert, hx, py_pure]; rfl, _, .inr rfl, rfl⟩
  · refine direct_KT A (K := -1) (T := 0) (spl := [1]) (n := 1) h h' (by decide +kernel) (by decide)
      (by decide +kernel) (by decide +kernel) rfl (fun x hx => ?_) (by decide)
    exact ⟨_, A.scale (1) x, by simp [bS_DS_loop, bS_DS_select, bS_DS_update, pyGet, pyAssert, hx, py_pure]; rfl, _, .inr rfl, rfl⟩
  · refine direct_KT A (K := 0) (T := 1) (spl := [1]) (n := 1) h h' (by decide +kernel) (by decide)
      (by decide +kernel) (by decide +kernel) rfl (fun x hx => ?_) (by decide)
    exact ⟨_, A.scale (1) x, by simp [bS_DS_loop, bS_DS_select, bS_DS_update, pyGet, pyAssert, hx, py_pure]; rfl, _, .inr rfl, rfl⟩
  · refine direct_KT A (K := 1) (T := 0) (spl := [-1]) (n := 1) h h' (by decide +kernel) (by decide)
      (by decide +kernel) (by decide +kernel) rfl (fun x hx => ?_) (by decide)
    exact ⟨_, A.scale (-1) x, by simp [bS_DS_loop, bS_DS_select, bS_DS_update, pyGet, pyAssert, hx, py_pure]; rfl, _, .inr rfl, rfl⟩
  · refine direct_KT A (K := -1) (T := 0) (spl := [-1]) (n := 1) h h' (by decide +kernel) (by decide)
      (by decide +kernel) (by decide +kernel) rfl (fun x hx => ?_) (by decide)
    exact ⟨_, A.scale (1) x, by simp [bS_DS_loop, bS_DS_select, bS_DS_update, pyGet, pyAssert, hx, py_pure]; rfl, _, .inr rfl, rfl⟩
  · refine direct_KT A (K := 0) (T := 1) (spl := [-1]) (n := 1) h h' (by decide +kernel) (by decide)
      (by decide +kernel) (by decide +kernel) rfl (fun x hx => ?_) (by decide)
    exact ⟨_, A.scale (1) x, by simp [bS_DS_loop, bS_DS_select, bS_DS_update, pyGet, pyAssert, hx, py_pure]; rfl, _, .inr rfl, rfl⟩
  · split_ifs at hc with he hs
    · injection hc with hc
      have := direct_id A h h' he
      rw [if_pos hs, hc] at this
      exact this
    · injection hc with hc
      have := direct_id A h h' he
      rw [if_neg hs, hc] at this
      exact this
  · cases hc
end

end Acm
