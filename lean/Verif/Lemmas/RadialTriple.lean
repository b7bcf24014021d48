import Verif.Lemmas.RadialSingle

/-!
# The `dtype` of the matrices of products of three factors, where `lambda` decreases by an odd number
-/

namespace Acm

open Acm.Spec

theorem loop_three {K a c d : Int} {b b' b'' : Prop} (h : Sel K [a, c, d] 3 1 b) (h' : Sel K [a, c, d] 2 1 b')
    (h'' : Sel K [a, c, d] 1 1 b'') : Loop K [a, c, d] 3 (b ∨ b' ∨ b'') := by
  intro x l P hP
  obtain ⟨fs, e, h1, h2⟩ := h l
  obtain ⟨q, h3, h4⟩ := update_first (n := 3) (m := ⟨fs, e⟩) hP
  obtain ⟨gs, e', h5, h6⟩ := h' (l + (d : ℝ))
  obtain ⟨ks, e'', h7, h8⟩ := h'' (l + (d : ℝ) + (c : ℝ))
  unfold bS_DS_loop
  simp only [Nat.reduceAdd, h1, py_bind_ok, h3]
  show ∃ l' p, bS_DS_loop (formal ℝ) K [a, c, d] 3 x 2 (l + (d : ℝ)) (some q) = .ok (l', some p) ∧ _
  unfold bS_DS_loop
  simp only [Nat.reduceAdd, h5, py_bind_ok]
  show ∃ l' p, bS_DS_loop (formal ℝ) K [a, c, d] 3 x 1 (l + (d : ℝ) + (c : ℝ))
    (some ⟨gs ++ q.factors, e' + q.expo⟩) = .ok (l', some p) ∧ _
  unfold bS_DS_loop
  simp only [zero_add, h7, py_bind_ok]
  refine ⟨_, ⟨ks ++ (gs ++ q.factors), e'' + (e' + q.expo)⟩, rfl, ?_⟩
  show HasSym (ks ++ (gs ++ q.factors)) ↔ _
  rw [hasSym_append, hasSym_append, h8, h6, h4]
  show b'' ∨ b' ∨ HasSym fs ↔ _
  rw [h2]
  tauto

theorem loop_pair_one {K a c d : Int} {b b' : Prop} (h : Sel K [a, c, d] 3 2 b) (h' : Sel K [a, c, d] 1 1 b') :
    Loop K [a, c, d] 3 (b ∨ b') := by
  intro x l P hP
  obtain ⟨fs, e, h1, h2⟩ := h l
  obtain ⟨q, h3, h4⟩ := update_first (n := 3) (m := ⟨fs, e⟩) hP
  obtain ⟨gs, e', h5, h6⟩ := h' (l + (d : ℝ))
  unfold bS_DS_loop
  simp only [Nat.reduceAdd, h1, py_bind_ok, h3]
  show ∃ l' p, bS_DS_loop (formal ℝ) K [a, c, d] 3 x 1 (l + (d : ℝ)) (some q) = .ok (l', some p) ∧ _
  unfold bS_DS_loop
  simp only [zero_add, h5, py_bind_ok]
  refine ⟨_, ⟨gs ++ q.factors, e' + q.expo⟩, rfl, ?_⟩
  show HasSym (gs ++ q.factors) ↔ _
  rw [hasSym_append, h6, h4]
  show b' ∨ HasSym fs ↔ _
  rw [h2]
  tauto

theorem sel_bDD_m3 : Sel 1 [-1, 0, 0] 3 2 False :=
  sel_mk (fun l => [(.me .D2b, l)]) 2 (fun _ => rfl) fun _ => by simp [HasSym, Prim.symbolic]

theorem sel_bDD_m1 : Sel 1 [-1, 0, 0] 1 1 False :=
  sel_mk (fun l => [(.me .b_ml, l)]) (-1) (fun _ => rfl) fun _ => by simp [HasSym, Prim.symbolic]

theorem sel_bDD_mm3 : Sel 1 [-1, -1, -1] 3 1 False :=
  sel_mk (fun l => [(.me .Db_ml, l)]) 1 (fun _ => rfl) fun _ => by simp [HasSym, Prim.symbolic]

theorem sel_bDD_mm2 : Sel 1 [-1, -1, -1] 2 1 False :=
  sel_mk (fun l => [(.me .Db_ml, l)]) 1 (fun _ => rfl) fun _ => by simp [HasSym, Prim.symbolic]

theorem sel_bDD_mm1 : Sel 1 [-1, -1, -1] 1 1 False :=
  sel_mk (fun l => [(.me .b_ml, l)]) (-1) (fun _ => rfl) fun _ => by simp [HasSym, Prim.symbolic]

theorem splits_bDD {R : Int} (hR : R < 0) (ho : R % 2 = 1) :
    R = -1 ∧ Lambda_Splits 1 2 R = .ok [-1, 0, 0] ∨ R = -3 ∧ Lambda_Splits 1 2 R = .ok [-1, -1, -1] ∨
      R + 3 ≠ 0 ∧ (R + 3) % 2 = 0 ∧ Lambda_Splits 1 2 R = .ok [R + 3, -1, -1, -1] := by
  by_cases h1 : R = -1
  · subst h1; exact .inl ⟨rfl, by decide +kernel⟩
  by_cases h3 : R = -3
  · subst h3; exact .inr (.inl ⟨rfl, by decide +kernel⟩)
  refine .inr (.inr ⟨by omega, by omega, ?_⟩)
  unfold Lambda_Splits
  rw [require_nonnegint_ok (by decide), py_bind_ok, show |(1 : Int)| + 2 = 3 from rfl, abs_of_neg hR]
  simp only [py_pure]
  rw [if_pos (by omega), if_pos (by rw [is_even_iff]; omega), py_bind_ok, if_pos hR]
  simp only [pyRep, List.map_cons]
  congr 2
  ring

theorem not_symbolic_bD2b {lam : ℝ} {R : Int} (h1 : 0 < lam) (h2 : 0 < lam + (R : ℝ)) (hR : R < 0) (ho : R % 2 = 1) :
    ∃ p, RepRadial_bS_DS (formal ℝ) 1 2 lam R = .ok p ∧ ¬ HasSym p.factors := by
  have hn : (|(1 : Int)| + 2).toNat = 3 := rfl
  rcases splits_bDD hR ho with ⟨rfl, e⟩ | ⟨rfl, e⟩ | ⟨g1, g2, e⟩
  · obtain ⟨p, e, hp⟩ := bsds_sym (pre := []) h1 h2 hn (by decide) rfl e (.inl rfl) (loop_pair_one sel_bDD_m3 sel_bDD_m1)
    exact ⟨p, e, by simpa using hp⟩
  · obtain ⟨p, e, hp⟩ := bsds_sym (pre := []) h1 h2 hn (by decide) rfl e (.inl rfl)
      (loop_three sel_bDD_mm3 sel_bDD_mm2 sel_bDD_mm1)
    exact ⟨p, e, by simpa using hp⟩
  · obtain ⟨p, e, hp⟩ := bsds_sym (pre := [R + 3]) h1 h2 hn (by decide) rfl e (.inr ⟨_, rfl, g1, g2⟩)
      (loop_three sel_bDD_mm3 sel_bDD_mm2 sel_bDD_mm1)
    exact ⟨p, e, by simpa using hp⟩

theorem lambda_bDD {R : Int} (hR : R < 0) (ho : R % 2 = 1) : Lambda_RadialOp_List [.KT 1 2] R = .ok [R] := by
  by_cases h1 : R = -1
  · subst h1; decide +kernel
  have habs : lambdaAbsList [.KT 1 2] R [3] [1] = .ok [|R|] := by
    have ha : |R| = -R := abs_of_neg hR
    have h3 : oddinOf (|R| - 3) [1] = 0 := by
      unfold oddinOf
      rw [if_neg (by rw [is_odd_iff]; omega)]
    unfold lambdaAbsList
    simp only [List.sum_cons, List.sum_nil, add_zero]
    rw [if_neg (by omega), if_neg (by omega), h3, if_neg (by norm_num), place_single (fun _ => by omega) (by omega)]
    congr 2; omega
  unfold Lambda_RadialOp_List
  simp only [List.map_cons, List.map_nil, KTSOp.maxVar]
  rw [show [|(1 : Int)| + 2].mapM (fun m => irem m 2) = (.ok [1] : Py (List Int)) from rfl, py_bind_ok,
    show |(1 : Int)| + 2 = 3 from rfl, habs, py_bind_ok, if_neg (by omega), List.map_cons, List.map_nil, abs_of_neg hR,
    neg_neg]
  rfl

/-- `beta d^2/dbeta^2` is represented by floating point numbers if `lambda` decreases by an odd number. -/
theorem symbolic_bD2b {lam : ℝ} {R : Int} (h1 : 0 < lam) (h2 : 0 < lam + (R : ℝ)) (hR : R < 0) (ho : R % 2 = 1) :
    ¬ Symbolic [.b, .D2b] lam R := by
  rintro ⟨q, e, hq⟩
  obtain ⟨p, hp, hn⟩ := not_symbolic_bD2b h1 h2 hR ho
  have hw : Parse_RadialOp_List [.b, .D2b] = .ok [.KT 1 2] := by decide +kernel
  have hplan : RepRadial_Prod_plan [.b, .D2b] R = .ok ([.KT 1 2], [R]) := by
    unfold RepRadial_Prod_plan
    rw [hw, py_bind_ok, lambda_bDD hR ho, py_bind_ok, if_neg (by simp)]
    rfl
  unfold RepRadial_Prod at e
  rw [if_neg (by linarith), if_neg (by linarith), hplan, py_bind_ok] at e
  simp only [RepRadialshfs_Prod, RepRadialshfs_loop, py_pure, py_bind_ok, KTSOp.representation, hp] at e
  injection e with e
  subst e
  exact hn hq

end Acm
