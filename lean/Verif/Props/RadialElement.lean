import Verif.Lemmas.RadialElement
import Verif.Props.Radial

/-!
# Property C79: single radial matrix elements
-/

namespace Acm.Props
open Acm Spec

/-- The matrix-element function of an elementary operator with a closed form. -/
noncomputable def primME : Prim → ℝ → ℕ → ℕ → Py ℝ
  | .me m, lam, i, j => m.fn lam i j
  | .idPl r, lam, i, j => ME_Radial_id_pl lam i j r.toNat
  | .idMl r, lam, i, j => ME_Radial_id_ml lam i j r.toNat
  | _, _, _, _ => .ok 0

theorem element_direct {la : LinAlg} {op : Option RadSym} {v : Int} {prim : Prim} {a lam : ℝ} {f i : ℕ}
    (h : 0 < lam) (hc : closedForm op v = some prim) :
    ME_Radial la op a lam v f i = (primME prim lam f i) >>= fun x => pure (a ^ ((opList op).map symExpo).sum * x) := by
  unfold closedForm at hc
  split at hc <;> (try (injection hc with hc; subst hc)) <;> (try (cases hc; done))
  iterate 13
    · simp only [ME_Radial, if_neg h.not_ge, opList, List.map_cons, List.map_nil, List.sum_cons, List.sum_nil, add_zero,
        symExpo, primME, RadME.fn, zpow_neg, zpow_one, zpow_zero, one_mul, reduceCtorEq, Option.some.injEq, false_and, if_false, and_true,
        if_true, and_self, and_false, neg_eq_zero, one_ne_zero, Int.reduceNeg, Int.reduceEq]
      simp [bind, Except.bind, pure, Except.pure, div_eq_mul_inv, mul_comm] <;> try (split <;> simp_all)
  have hpure : ∀ x : Py ℝ, (x >>= fun y => pure (a ^ (([] : List RadSym).map symExpo).sum * y)) = x := by
    intro x
    cases x <;> simp [bind, Except.bind, pure, Except.pure]
  split_ifs at hc with he hs
  · injection hc with hc
    subst hc
    rw [opList, hpure]
    have he' : is_even v = true := by rw [is_even_iff]; omega
    simp only [ME_Radial, if_neg h.not_ge, reduceCtorEq, false_and, if_false, true_and, he', if_true, ge_iff_le, hs, primME]
    rw [Int.fdiv_eq_ediv_of_nonneg _ (by decide)]
  · injection hc with hc
    subst hc
    rw [opList, hpure]
    have he' : is_even v = true := by rw [is_even_iff]; omega
    simp only [ME_Radial, if_neg h.not_ge, reduceCtorEq, false_and, if_false, true_and, he', if_true, ge_iff_le, hs, primME]
    rw [Int.fdiv_eq_ediv_of_nonneg _ (by decide)]

/-- `1/beta^2` and `d^2/dbeta^2` have no matrix elements at `lambda = 1`. -/
def Singular (op : Option RadSym) (lam : ℝ) : Prop := (op = some .bm2 ∨ op = some .D2b) ∧ lam = 1

theorem prim_entries {op : Option RadSym} {v : Int} {prim : Prim} {lam : ℝ} (h : 0 < lam) (h' : 0 < lam + v)
    (hc : closedForm op v = some prim) (hs : ¬ Singular op lam) : ∃ g, Entries (primME prim lam) g := by
  unfold closedForm at hc
  have hm : ∀ {p : ℝ → Prop}, (∀ l, 0 < l → p (l + 1)) → 0 < lam + ((-1 : Int) : ℝ) → p lam := by
    intro p hp hl
    have := hp (lam - 1) (by push_cast at hl; linarith)
    rwa [sub_add_cancel] at this
  split at hc <;> (try (injection hc with hc; subst hc)) <;> (try (cases hc; done))
  · exact ⟨_, b2_ok h⟩
  · exact ⟨_, bm2_ok h fun e => hs ⟨.inl rfl, e⟩⟩
  · exact ⟨_, D2b_ok h fun e => hs ⟨.inr rfl, e⟩⟩
  · exact ⟨_, bDb_ok h⟩
  · exact ⟨_, S0_ok lam⟩
  · exact ⟨_, Sp_ok h⟩
  · exact ⟨_, Sm_ok h⟩
  · exact ⟨_, b_pl_ok h⟩
  · exact ⟨_, bm_pl_ok h⟩
  · exact ⟨_, Db_pl_ok h⟩
  · exact hm (p := fun lam => ∃ g, Entries (primME (.me .b_ml) lam) g) (fun l hl => ⟨_, b_ml_ok hl⟩) h'
  · exact hm (p := fun lam => ∃ g, Entries (primME (.me .bm_ml) lam) g) (fun l hl => ⟨_, bm_ml_ok hl⟩) h'
  · exact hm (p := fun lam => ∃ g, Entries (primME (.me .Db_ml) lam) g) (fun l hl => ⟨_, Db_ml_ok hl⟩) h'
  · split_ifs at hc with he hv
    · injection hc with hc
      subst hc
      exact ⟨_, id_pl_ok h _⟩
    · injection hc with hc
      subst hc
      obtain ⟨r, hr⟩ : ∃ r : ℕ, v = -(2 * (r : Int)) := ⟨(-v / 2).toNat, by omega⟩
      subst hr
      have hl : 0 < lam - 2 * r := by push_cast at h'; linarith
      have := id_ml_ok hl r
      rw [sub_add_cancel] at this
      refine ⟨fun i j => vid_pl (lam - 2 * r) r j i, fun i j => ?_⟩
      simp only [primME]
      rw [show (-(-(2 * (r : Int))) / 2).toNat = r by omega]
      exact this i j

/-- The end of C17 for a known formal product. -/
theorem prod_window {la : LinAlg} (hla : LinAlgOk la) {anorm : ℝ} (ha : anorm ≠ 0) {ops : List RadSym} {lam : ℝ}
    (h0 : 0 < lam) {v : Int} (h1 : 0 < lam + v) {nu_min nu_max nu_lap : ℕ} (hr : nu_min ≤ nu_max + 1)
    {kops : List KTSOp} {shfs : List Int} (hp : RepRadial_Prod_plan ops v = .ok (kops, shfs)) {z : Arr} {p : FormalProd ℝ}
    (hz : RepRadialshfs_Prod (radMat la anorm ((nu_min - nu_lap : ℕ) : Int) ((nu_max + nu_lap : ℕ) : Int)) kops lam shfs = .ok z)
    (hd : Denotes (radMat la anorm ((nu_min - nu_lap : ℕ) : Int) ((nu_max + nu_lap : ℕ) : Int)) p z) :
    ∃ y gs, RepRadialProd la anorm ops lam v nu_min nu_max nu_lap = .ok y ∧ Square (nu_max + 1 - nu_min) y ∧
      List.Forall₂ (PrimElement la (nu_min - nu_lap) (nu_max + nu_lap)) p.factors gs ∧
      ∀ i < nu_max + 1 - nu_min, ∀ j < nu_max + 1 - nu_min, y.e i j = anorm ^ p.expo *
        windowProd (nu_min - nu_lap) (nu_max + nu_lap) gs (nu_min + i) (nu_min + j) := by
  obtain ⟨hz', gs, k1, k2⟩ := denotes_window hla ha hd
  have elo : (nu_min : Int) - min (nu_lap : Int) nu_min = ((nu_min - nu_lap : ℕ) : Int) := by omega
  have ehi : (nu_max : Int) + nu_lap = ((nu_max + nu_lap : ℕ) : Int) := by omega
  have key : ∃ y, RepRadialProd la anorm ops lam v nu_min nu_max nu_lap = .ok y ∧ Square (nu_max + 1 - nu_min) y ∧
      ∀ i < nu_max + 1 - nu_min, ∀ j < nu_max + 1 - nu_min,
        y.e i j = z.e (min nu_lap nu_min + i) (min nu_lap nu_min + j) := by
    unfold RepRadialProd RepRadial_Prod
    rw [if_neg h0.not_ge, if_neg h1.not_ge, hp, py_bind_ok]
    simp only [elo, ehi, hz, py_bind_ok]
    by_cases hl : nu_lap = 0
    · subst hl
      rw [if_pos Int.natCast_zero]
      refine ⟨z, rfl, hz', fun i _ j _ => ?_⟩
      simp
    · rw [if_neg (by exact_mod_cast hl)]
      have e1 : min (nu_lap : Int) nu_min = ((min nu_lap nu_min : ℕ) : Int) := by omega
      have e2 : 1 + (nu_max : Int) - nu_min + ((min nu_lap nu_min : ℕ) : Int)
          = ((min nu_lap nu_min + (nu_max + 1 - nu_min) : ℕ) : Int) := by omega
      rw [e1, e2]
      exact ⟨_, rfl, slice_ok hz' (by omega)⟩
  obtain ⟨y, y1, y2, y3⟩ := key
  refine ⟨y, gs, y1, y2, k1, fun i hi j hj => ?_⟩
  rw [y3 i hi j hj, k2 _ (by omega) _ (by omega)]
  congr 2 <;> omega

theorem windowProd_single {lo hi : ℕ} (g : ℕ → ℕ → ℝ) {i j : ℕ} (hj : j ∈ Finset.Icc lo hi) :
    windowProd lo hi [g] i j = g i j := by
  simp only [windowProd, opId, mul_ite, mul_one, mul_zero, Finset.sum_ite_eq', if_pos hj]

theorem closedForm_prim {op : Option RadSym} {v : Int} {prim : Prim} (hc : closedForm op v = some prim) :
    (∃ m, prim = .me m) ∨ (∃ r, prim = .idPl r) ∨ ∃ r, prim = .idMl r := by
  unfold closedForm at hc
  split at hc <;> (try split_ifs at hc) <;> first
    | (injection hc with hc; subst hc; first | exact .inl ⟨_, rfl⟩ | exact .inr (.inl ⟨_, rfl⟩) | exact .inr (.inr ⟨_, rfl⟩))
    | (cases hc; done)

theorem primRep_ok {la : LinAlg} {a : ℝ} {lo hi : ℕ} {op : Option RadSym} {v : Int} {prim : Prim} {lam : ℝ}
    (hc : closedForm op v = some prim) {g : ℕ → ℕ → ℝ} (hg : Entries (primME prim lam) g) :
    ∃ x, primRep (radMat la a lo hi) prim lam = .ok x := by
  rcases closedForm_prim hc with ⟨m, rfl⟩ | ⟨r, rfl⟩ | ⟨r, rfl⟩
  · exact ⟨_, ofM_eq (g := fun i j => g (lo + i) (lo + j)) fun i _ j _ => hg _ _⟩
  · exact ⟨_, ofM_eq (g := fun i j => g (lo + i) (lo + j)) fun i _ j _ => hg _ _⟩
  · exact ⟨_, ofM_eq (g := fun i j => g (lo + i) (lo + j)) fun i _ j _ => hg _ _⟩

theorem primElement_entries {la : LinAlg} {lo hi : ℕ} {op : Option RadSym} {v : Int} {prim : Prim} {lam : ℝ}
    (hc : closedForm op v = some prim) {g : ℕ → ℕ → ℝ} (hg : Entries (primME prim lam) g) :
    PrimElement la lo hi (prim, lam) g := by
  rcases closedForm_prim hc with ⟨m, rfl⟩ | ⟨r, rfl⟩ | ⟨r, rfl⟩ <;> exact fun i _ j _ => hg i j

/-- C79: for an operator with a closed form, a positive `lambda` and a positive shifted
`lambda`, `ME_Radial` and `RepRadial_Prod` agree: the latter returns a matrix on every range
and with every overlap, and the former returns its entries. -/
theorem C79_agrees (la : LinAlg) (hla : LinAlgOk la) (anorm : ℝ) (ha : anorm ≠ 0) (op : Option RadSym) (v : Int)
    (prim : Prim) (hc : closedForm op v = some prim) (lam : ℝ) (h : 0 < lam) (h' : 0 < lam + v)
    (hs : ¬ Singular op lam) (nu_min nu_max nu_lap : ℕ) (hr : nu_min ≤ nu_max + 1) :
    ∃ y, RepRadialProd la anorm (opList op) lam v nu_min nu_max nu_lap = .ok y ∧
      ∀ f ∈ Finset.Icc nu_min nu_max, ∀ i ∈ Finset.Icc nu_min nu_max,
        ME_Radial la op anorm lam v f i = .ok (y.e (f - nu_min) (i - nu_min)) := by
  obtain ⟨g, hg⟩ := prim_entries h h' hc hs
  obtain ⟨kops, shfs, hp, hrun⟩ := direct_run
    (radMat la anorm ((nu_min - nu_lap : ℕ) : Int) ((nu_max + nu_lap : ℕ) : Int)) h h' hc
  obtain ⟨x, hx⟩ := primRep_ok (la := la) (a := anorm) (lo := nu_min - nu_lap) (hi := nu_max + nu_lap) hc hg
  obtain ⟨z, p, hz, hd, hf, he⟩ := hrun x hx
  obtain ⟨y, gs, y1, y2, y3, y4⟩ := prod_window hla ha h h' hr hp hz hd
  refine ⟨y, y1, fun f hf' i hi' => ?_⟩
  rw [Finset.mem_Icc] at hf' hi'
  have hw : windowProd (nu_min - nu_lap) (nu_max + nu_lap) gs f i = g f i := by
    rcases hf with hf | ⟨hf, hf2⟩
    · rw [hf] at y3
      cases y3 with
      | @cons _ g' _ _ h1 h2 =>
        cases h2
        rw [windowProd_single g' (by rw [Finset.mem_Icc]; omega)]
        exact primElement_agree h1 (primElement_entries hc hg) f (by rw [Finset.mem_Icc]; omega) i
          (by rw [Finset.mem_Icc]; omega)
    · rw [hf2] at y3
      cases y3
      subst hf
      have e := hg f i
      have e2 : ME_Radial_id_pl lam f i 0 = .ok (vid_pl lam 0 f i) := id_pl_ok h 0 f i
      simp only [primME] at e
      simp only [Int.toNat_zero] at e
      rw [e] at e2
      injection e2 with e2
      rw [e2, id_zero h]
      rfl
  rw [element_direct h hc, hg f i, py_bind_ok, y4 _ (by omega) _ (by omega), Nat.add_sub_cancel' hf'.1,
    Nat.add_sub_cancel' hi'.1, hw, he]
  rfl

theorem closedForm_facts {op : Option RadSym} {v : Int} {prim : Prim} (hc : closedForm op v = some prim) :
    prim.shift = v ∧ ∀ (W : Type) [Monoid W] (I : Interp W), prim.word I = ((opList op).map (symWord I)).prod := by
  unfold closedForm at hc
  split at hc <;> (try (injection hc with hc; subst hc)) <;> (try (cases hc; done))
  iterate 13
    · exact ⟨rfl, fun W _ I => by simp [Prim.word, opList, symWord]⟩
  split_ifs at hc with he hv <;> injection hc with hc <;> subst hc
  · exact ⟨by simp only [Prim.shift]; omega, fun W _ I => rfl⟩
  · exact ⟨by simp only [Prim.shift]; omega, fun W _ I => rfl⟩

theorem pt_one (f i : ℕ) : ME_Radial_pt 1 f i = .error .valueError := by
  unfold ME_Radial_pt
  rw [if_pos rfl]
  rfl

theorem bm2_one (f i : ℕ) : ME_Radial_bm2 1 f i = .error .valueError := by
  unfold ME_Radial_bm2
  split_ifs
  · rfl
  · rfl
  · exact pt_one _ _

theorem D2b_one (f i : ℕ) (w : ℝ) : ME_Radial_D2b 1 f i ≠ .ok w := by
  intro h
  unfold ME_Radial_D2b at h
  obtain ⟨_, _, h⟩ := py_bind_eq_ok h
  simp only [pt_one] at h
  cases h

theorem element_fallback {la : LinAlg} {op : Option RadSym} {v : Int} {a lam : ℝ} {f i : ℕ}
    (h : 0 < lam) (hc : closedForm op v = none) :
    ME_Radial la op a lam v f i = (do
      let MM ← RepRadialProd la a (opList op) lam v ((0 : ℕ) : Int) ((max f i : ℕ) : Int) (((|v| + 3) / 2).toNat : Int)
      pure (MM.e f i)) := by
  have hq : iquo (|v| + 3) 2 = .ok (((|v| + 3) / 2).toNat : Int) := by
    rw [iquo_ok (by positivity) (by norm_num), Int.toNat_of_nonneg (by positivity)]
  cases op with
  | none =>
    have he : ¬ is_even v = true := by
      intro he
      rw [is_even_iff] at he
      unfold closedForm at hc
      simp only [he, if_true] at hc
      split_ifs at hc
    simp only [ME_Radial, if_neg h.not_ge, reduceCtorEq, false_and, if_false, he, and_false, hq, py_bind_ok]
    rfl
  | some s =>
    have hv : ∀ {t : RadSym} {k : Int} {q : Prim}, closedForm (some t) k = some q → ¬ (s = t ∧ v = k) := by
      rintro t k q e ⟨rfl, rfl⟩
      rw [hc] at e
      cases e
    simp only [ME_Radial, if_neg h.not_ge, Option.some.injEq, reduceCtorEq, false_and, if_false, hq, py_bind_ok]
    rw [if_neg (hv (t := .b2) (k := 0) rfl), if_neg (hv (t := .bm2) (k := 0) rfl), if_neg (hv (t := .D2b) (k := 0) rfl),
      if_neg (hv (t := .bDb) (k := 0) rfl), if_neg (hv (t := .b) (k := 1) rfl), if_neg (hv (t := .bm) (k := 1) rfl),
      if_neg (hv (t := .Db) (k := 1) rfl), if_neg (hv (t := .b) (k := -1) rfl), if_neg (hv (t := .bm) (k := -1) rfl),
      if_neg (hv (t := .Db) (k := -1) rfl), if_neg (hv (t := .S0) (k := 0) rfl), if_neg (hv (t := .Sp) (k := 0) rfl),
      if_neg (hv (t := .Sm) (k := 0) rfl)]
    rfl

/-- C79: whatever `ME_Radial` returns for a positive shifted `lambda` is `anorm^e` times an
element of a product of elementary operators that chain from `lambda` to `lambda + lambda_var`
and denote the requested operator, with intermediate labels restricted to a range
`0..hi` that contains both labels. -/
theorem C79_meaning (la : LinAlg) (hla : LinAlgOk la) (anorm : ℝ) (ha : anorm ≠ 0) (op : Option RadSym) (v : Int)
    (lam : ℝ) (h' : 0 < lam + v) (f i : ℕ) (x : ℝ) (hx : ME_Radial la op anorm lam v f i = .ok x) :
    ∃ (p : FormalProd ℝ) (gs : List (ℕ → ℕ → ℝ)) (hi : ℕ), f ≤ hi ∧ i ≤ hi ∧
      Chain p.factors lam (lam + v) ∧
      (∀ (W : Type) [Monoid W] (I : Interp W), wordOf I p.factors = ((opList op).map (symWord I)).prod) ∧
      p.expo = ((opList op).map symExpo).sum ∧
      List.Forall₂ (PrimElement la 0 hi) p.factors gs ∧ x = anorm ^ p.expo * windowProd 0 hi gs f i := by
  by_cases h : lam ≤ 0
  · unfold ME_Radial at hx
    rw [if_pos h] at hx
    cases hx
  replace h : 0 < lam := not_le.1 h
  cases hc : closedForm op v with
  | some prim =>
    have hs : ¬ Singular op lam := by
      rintro ⟨ho, rfl⟩
      rw [element_direct h hc] at hx
      obtain ⟨w, hw, _⟩ := py_bind_eq_ok hx
      rcases ho with rfl | rfl
      · have : v = 0 ∧ prim = .me .bm2 := by
          unfold closedForm at hc
          split at hc <;> simp_all
        obtain ⟨rfl, rfl⟩ := this
        simp only [primME, RadME.fn, bm2_one] at hw
        cases hw
      · have : v = 0 ∧ prim = .me .D2b := by
          unfold closedForm at hc
          split at hc <;> simp_all
        obtain ⟨rfl, rfl⟩ := this
        exact D2b_one f i w hw
    obtain ⟨g, hg⟩ := prim_entries h h' hc hs
    refine ⟨⟨[(prim, lam)], ((opList op).map symExpo).sum⟩, [g], max f i, le_max_left _ _, le_max_right _ _, ?_, ?_, rfl,
      .cons (primElement_entries hc hg) .nil, ?_⟩
    · exact ⟨rfl, by rw [(closedForm_facts hc).1]⟩
    · intro W _ I
      simpa [wordOf] using (closedForm_facts hc).2 W I
    · rw [windowProd_single g (by simp)]
      rw [element_direct h hc, hg f i, py_bind_ok] at hx
      injection hx with hx
      exact hx.symm
  | none =>
    rw [element_fallback h hc] at hx
    obtain ⟨y, hy, hx⟩ := py_bind_eq_ok hx
    injection hx with hx
    obtain ⟨_, p, gs, c1, c2, c3, c4, c5⟩ := C17_window la hla anorm ha (opList op) lam v 0 (max f i)
      ((|v| + 3) / 2).toNat (by omega) y hy
    rw [Nat.zero_sub] at c4 c5
    refine ⟨p, gs, _, ?_, ?_, c1, c2, c3, c4, ?_⟩
    · omega
    · omega
    · rw [← hx, c5 f (by omega) i (by omega), Nat.zero_add, Nat.zero_add]

/-- C79: a `lambda` that is not positive, or a symbol that is not one of the radial
operators, is rejected. -/
theorem C79_rejects (la : LinAlg) (op : Option RadSym) (anorm lam : ℝ) (v : Int) (f i : ℕ)
    (h : lam ≤ 0 ∨ op = some .other) : ME_Radial la op anorm lam v f i = .error .valueError := by
  by_cases h0 : lam ≤ 0
  · unfold ME_Radial
    rw [if_pos h0]
    rfl
  obtain rfl := h.resolve_left h0
  rw [element_fallback (not_le.1 h0) (by unfold closedForm; split <;> simp_all)]
  unfold RepRadialProd RepRadial_Prod
  rw [if_neg h0]
  by_cases h1 : lam + (v : ℝ) ≤ 0
  · rw [if_pos h1]; rfl
  · rw [if_neg h1]
    unfold RepRadial_Prod_plan
    rw [parse_err _ (by simp [opList])]
    rfl

/-- The condition on the shifted `lambda` in `C79_agrees` is needed: for `lambda = 1/2`,
`ME_Radial` returns an element of `beta` that lowers `lambda` to `-1/2`, where
`RepRadial_Prod` raises. -/
theorem C79_unchecked (la : LinAlg) (nu_max nu_lap : ℕ) :
    ME_Radial la (some .b) 1 (1 / 2) (-1) 1 1 = .ok (Real.sqrt (1 / 2)) ∧
    RepRadialProd la 1 [.b] (1 / 2) (-1) 0 nu_max nu_lap = .error .valueError := by
  constructor
  · rw [element_direct (prim := .me .b_ml) (by norm_num) rfl]
    simp only [primME, RadME.fn, ME_Radial_b_ml]
    rw [if_neg (by decide), if_true, pySqrt_ok (by norm_num), py_bind_ok, one_zpow, one_mul, py_pure]
    norm_num
  · unfold RepRadialProd RepRadial_Prod
    rw [if_neg (by norm_num), if_pos (by norm_num)]
    rfl

/-- The hypotheses of `C79_agrees` hold for the identity with `lambda` lowered from 5 to 1. -/
example (la : LinAlg) (hla : LinAlgOk la) :
    ∃ y, RepRadialProd la 2 [] 5 (-4) 1 3 2 = .ok y ∧ ∀ f ∈ Finset.Icc 1 3, ∀ i ∈ Finset.Icc 1 3,
      ME_Radial la none 2 5 (-4) f i = .ok (y.e (f - 1) (i - 1)) :=
  C79_agrees la hla 2 (by norm_num) none (-4) (.idMl 2) rfl 5 (by norm_num) (by norm_num)
    (by rintro ⟨h | h, _⟩ <;> cases h) 1 3 2 (by norm_num)

/-- `C79_meaning` applies: the element of `1/beta` from 2 to 0 that lowers `lambda` from 2. -/
example (la : LinAlg) : ∃ x, ME_Radial la (some .bm) 3 2 (-1) 0 2 = .ok x := by
  obtain ⟨g, hg⟩ := prim_entries (op := some .bm) (v := -1) (lam := 2) (by norm_num) (by norm_num) rfl
    (by rintro ⟨h | h, _⟩ <;> cases h)
  exact ⟨_, by rw [element_direct (prim := .me .bm_ml) (by norm_num) rfl, hg 0 2, py_bind_ok]; rfl⟩

/-- `C79_meaning` applies without a closed form too: the matrix of `beta` with no shift of `lambda`
is a square root. -/
example : closedForm (some .b) 0 = none := rfl

end Acm.Props
