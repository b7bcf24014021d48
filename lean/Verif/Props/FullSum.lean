import Verif.Lemmas.FullMemo
import Verif.Lemmas.FullWitness
import Verif.Props.FullOps

/-!
# Properties C30, C31, C35, C36: sums of operators, memo tables, momentum tensors
-/

namespace Acm.Props

open Acm Acm.Spec

/-! ## C30 -/

theorem foldl_add_e {n : ℕ} : ∀ (l : List Arr) (M : Arr), Square n M → ∀ p q, p < n → q < n →
    Square n (l.foldl Arr.add M) ∧
      (l.foldl Arr.add M).e p q = M.e p q + (l.map fun A => A.e p q).sum := by
  intro l
  induction l with
  | nil => intro M hM p q _ _; exact ⟨hM, by simp⟩
  | cons A l ih =>
    intro M hM p q hp hq
    obtain ⟨h1, h2⟩ := ih (M.add A) (square_add hM) p q hp hq
    refine ⟨h1, ?_⟩
    rw [List.foldl_cons, h2, add_e hM hp hq, List.map_cons, List.sum_cons]
    ring

theorem foldl_add_square {n : ℕ} : ∀ (l : List Arr) (M : Arr), Square n M →
    Square n (l.foldl Arr.add M) := by
  intro l
  induction l with
  | nil => intro M hM; exact hM
  | cons A l ih => intro M hM; exact ih (M.add A) (square_add hM)

theorem allMat_iff {env : XEnv} {a : XArgs} (h : LegalRanges a) {ts : OperatorSum} {lam : LambdaFunction}
    {M : Arr} : allMat env a ts lam = .ok M ↔
      (ts = [] ∧ M = Arr.zeros a.dim a.dim) ∨
      ∃ t ts' P Ps, ts = t :: ts' ∧ prodMat env a t.2 lam = .ok P ∧
        List.Forall₂ (fun t P => prodMat env a t.2 lam = .ok P) ts' Ps ∧
        M = (List.zipWith (fun t P => scaleTerm t a.xlabels P) ts' Ps).foldl Arr.add
          (scaleTerm t a.xlabels P) := by
  cases ts with
  | nil =>
    unfold allMat
    rw [dimXspace_ok h, py_bind_ok, Int.toNat_natCast]
    constructor
    · intro e; injection e with e; exact .inl ⟨rfl, e.symm⟩
    · rintro (⟨_, rfl⟩ | ⟨t, ts', P, Ps, h1, _⟩)
      · rfl
      · cases h1
  | cons t ts =>
    unfold allMat
    simp only [lbsXspace_ok h, py_bind_ok]
    constructor
    · intro e
      obtain ⟨x, hx, e⟩ := py_bind_eq_ok e
      obtain ⟨P, hP, hx⟩ := py_bind_eq_ok hx
      injection hx with hx
      have hsq : Square a.dim x := by
        rw [← hx, ← length_xlabels]
        exact scaleTerm_square (by rw [length_xlabels]; exact prodMat_square h hP)
      obtain ⟨Ps, h1, h2⟩ := (sumMat_iff hsq).1 e
      exact .inr ⟨t, ts, P, Ps, rfl, hP, h1, by rw [h2, hx]⟩
    · rintro (⟨h1, _⟩ | ⟨t', ts', P, Ps, h1, hP, h2, rfl⟩)
      · cases h1
      · cases h1
        rw [show termMat env a.xlabels a lam t = .ok (scaleTerm t a.xlabels P) by
          unfold termMat; rw [hP]; rfl, py_bind_ok]
        refine (sumMat_iff ?_).2 ⟨Ps, h2, rfl⟩
        rw [← length_xlabels]
        exact scaleTerm_square (by rw [length_xlabels]; exact prodMat_square h hP)

theorem rep_eq {env : XEnv} {a : XArgs} (h : LegalRanges a) {s : XState} (hs : MemoOk env s)
    (ts : OperatorSum) : (RepXspace env ts a s).1 = allMat env a ts s.lam_fun := by
  rw [(tracks_rep env a ts s hs).1, check_ok h]
  rfl

theorem prod_eq {env : XEnv} {a : XArgs} {s : XState} (hs : MemoOk env s)
    (ops : List OpSym) : (RepXspace_Prod env ops a s).1 = prodMat env a ops s.lam_fun :=
  (tracks_prod env ops a s hs).1

/-- C30: a sum has a representation exactly if each of its products has one. -/
theorem C30_exists {env : XEnv} {a : XArgs} (h : LegalRanges a) {s : XState} (hs : MemoOk env s)
    (ts : OperatorSum) :
    (∃ M, (RepXspace env ts a s).1 = .ok M) ↔ ∀ t ∈ ts, ∃ P, (RepXspace_Prod env t.2 a s).1 = .ok P := by
  rw [rep_eq h hs]
  simp only [prod_eq hs, allMat_iff h]
  constructor
  · rintro ⟨M, ⟨rfl, _⟩ | ⟨t, ts', P, Ps, rfl, hP, hPs, _⟩⟩
    · intro t ht; cases ht
    · intro u hu
      rcases List.mem_cons.1 hu with rfl | hu
      · exact ⟨P, hP⟩
      · have hmem : ∀ {us : OperatorSum} {Qs : List Arr},
            List.Forall₂ (fun t P => prodMat env a t.2 s.lam_fun = .ok P) us Qs → u ∈ us →
            ∃ P, prodMat env a u.2 s.lam_fun = .ok P := ?_
        · exact hmem hPs hu
        intro us Qs hPs hu
        induction hPs with
        | nil => cases hu
        | cons hQ _ ih =>
          rcases List.mem_cons.1 hu with rfl | hu
          · exact ⟨_, hQ⟩
          · exact ih hu
  · intro hall
    cases ts with
    | nil => exact ⟨_, .inl ⟨rfl, rfl⟩⟩
    | cons t ts =>
      obtain ⟨P, hP⟩ := hall t List.mem_cons_self
      have : ∃ Ps, List.Forall₂ (fun t P => prodMat env a t.2 s.lam_fun = .ok P) ts Ps := by
        have hall' : ∀ u ∈ ts, ∃ P, prodMat env a u.2 s.lam_fun = .ok P :=
          fun u hu => hall u (List.mem_cons_of_mem _ hu)
        clear hall
        induction ts with
        | nil => exact ⟨[], .nil⟩
        | cons u ts ih =>
          obtain ⟨Q, hQ⟩ := hall' u List.mem_cons_self
          obtain ⟨Qs, hQs⟩ := ih fun w hw => hall' w (List.mem_cons_of_mem _ hw)
          exact ⟨Q :: Qs, .cons hQ hQs⟩
      obtain ⟨Ps, hPs⟩ := this
      exact ⟨_, .inr ⟨t, ts, P, Ps, rfl, hP, hPs, rfl⟩⟩

theorem forall₂_unique {α β : Type} {R : α → β → Prop} (hR : ∀ x y z, R x y → R x z → y = z)
    {xs : List α} : ∀ {ys zs : List β}, List.Forall₂ R xs ys → List.Forall₂ R xs zs → ys = zs := by
  intro ys zs h
  induction h generalizing zs with
  | nil => intro h2; cases h2; rfl
  | cons h1 _ ih =>
    intro h2
    cases h2 with
    | cons h3 h4 => rw [hR _ _ _ h1 h3, ih h4]

theorem sum_terms {env : XEnv} {a : XArgs} (h : LegalRanges a) {lam : LambdaFunction} {p q : ℕ}
    {x : XspaceLabel} (hp : p < a.dim) (hq : a.xlabels[q]? = some x) {ts : OperatorSum} {Ps : List Arr}
    (hPs : List.Forall₂ (fun t P => prodMat env a t.2 lam = .ok P) ts Ps) :
    ((List.zipWith (fun t P => scaleTerm t a.xlabels P) ts Ps).map fun A => A.e p q).sum
      = (List.zipWith (fun t P => t.1 x * P.e p q) ts Ps).sum := by
  induction hPs with
  | nil => rfl
  | cons hP _ ih =>
    rw [List.zipWith_cons_cons, List.map_cons, List.sum_cons, List.zipWith_cons_cons, List.sum_cons, ih,
      scaleTerm_e (by rw [length_xlabels]; exact prodMat_square h hP) (by rw [length_xlabels]; exact hp) hq]

/-- C30: the matrix of a sum of operators `coefficient * product` has one row and one column for
each label, and its element for final label number `p` and initial label number `q` is the sum over
the terms of the coefficient at the initial label times the element of the product.  For the
empty sum, `Ps = []`: all elements are zero. -/
theorem C30_sum {env : XEnv} {a : XArgs} (h : LegalRanges a) {s : XState} (hs : MemoOk env s)
    {ts : OperatorSum} {M : Arr} (hM : (RepXspace env ts a s).1 = .ok M) {xs : List XspaceLabel}
    (hx : lbsXspace a.nu_min a.nu_max a.v_min a.v_max a.L_min (some a.L_max) = .ok xs) {Ps : List Arr}
    (hPs : List.Forall₂ (fun t P => (RepXspace_Prod env t.2 a s).1 = .ok P) ts Ps) :
    Square xs.length M ∧ ∀ p q x, p < xs.length → xs[q]? = some x →
      M.e p q = (List.zipWith (fun t P => t.1 x * P.e p q) ts Ps).sum := by
  rw [lbsXspace_ok h] at hx
  injection hx with hx
  subst hx
  rw [rep_eq h hs, allMat_iff h] at hM
  simp only [prod_eq hs] at hPs
  rw [length_xlabels]
  rcases hM with ⟨rfl, rfl⟩ | ⟨t, ts', P, Qs, rfl, hP, hQs, rfl⟩
  · cases hPs
    refine ⟨⟨rfl, rfl, fun p q h => ?_⟩, fun p q x _ _ => ?_⟩ <;> simp [Arr.zeros, Arr.of]
  · cases hPs with
    | cons hP' hPs' =>
      rename_i P' Ps'
      have e1 : P' = P := by rw [hP] at hP'; injection hP' with e; exact e.symm
      have e2 : Ps' = Qs := forall₂_unique
        (fun t y z (hy : _ = _) (hz : _ = _) => by rw [hy] at hz; injection hz) hPs' hQs
      subst e1 e2
      have hsq : Square a.dim (scaleTerm t a.xlabels P') := by
        rw [← length_xlabels]
        exact scaleTerm_square (by rw [length_xlabels]; exact prodMat_square h hP)
      refine ⟨foldl_add_square _ _ hsq, fun p q x hp hq => ?_⟩
      have hq' : q < a.dim := by
        rw [← length_xlabels]; exact (List.getElem?_eq_some_iff.1 hq).1
      rw [(foldl_add_e _ _ hsq p q hp hq').2, sum_terms h hp hq hPs', List.zipWith_cons_cons, List.sum_cons,
        scaleTerm_e (by rw [length_xlabels]; exact prodMat_square h hP) (by rw [length_xlabels]; exact hp) hq]

/-- The hypotheses of C30 are met in the initial state, whatever the environment. -/
example (env : XEnv) : LegalRanges ⟨1, 5 / 2, 0, 3, 0, 6, 0, 4⟩ ∧
    MemoOk env (XState.start lambda_acm_fun) := by
  refine ⟨by unfold LegalRanges; simp, memoOk_start env _⟩

/-! ## C31 -/

theorem clean_history {env : XEnv} : ∀ (es : List XEvent) (lam : LambdaFunction),
    CleanHistory env (XState.start lam) es →
      ∃ lam', history env (XState.start lam) es = XState.start lam' := by
  intro es
  induction es with
  | nil => intro lam _; exact ⟨lam, rfl⟩
  | cons e es ih =>
    intro lam ⟨h1, h2⟩
    have : ∃ lam', e.run env (XState.start lam) = XState.start lam' := by
      cases e with
      | sum ts a =>
        obtain ⟨M, hM⟩ := h1
        exact rep_clears (M := M) (Prod.ext hM rfl)
      | prod ops a => exact h1.elim
      | setLam l => exact ⟨l, rfl⟩
    obtain ⟨lam', hl⟩ := this
    have h3 := h2
    rw [hl] at h3
    obtain ⟨l2, hl2⟩ := ih lam' h3
    refine ⟨l2, ?_⟩
    show history env (e.run env (XState.start lam)) es = _
    rw [hl, hl2]

theorem quiet_history {env : XEnv} : ∀ (es : List XEvent) (s : XState), MemoOk env s →
    (∀ e ∈ es, ¬ e.isSet) → MemoOk env (history env s es) ∧ (history env s es).lam_fun = s.lam_fun := by
  intro es
  induction es with
  | nil => intro s hs _; exact ⟨hs, rfl⟩
  | cons e es ih =>
    intro s hs hq
    have : MemoOk env (e.run env s) ∧ (e.run env s).lam_fun = s.lam_fun := by
      cases e with
      | sum ts a => exact (tracks_rep env a ts s hs).2
      | prod ops a => exact (tracks_prod env ops a s hs).2
      | setLam l => exact (hq _ List.mem_cons_self trivial).elim
    obtain ⟨h1, h2⟩ := ih _ this.1 fun e he => hq e (List.mem_cons_of_mem _ he)
    exact ⟨h1, h2.trans this.2⟩

/-- C31, the part that holds.  Let the history of the process be any sequence of successful calls of
`RepXspace` and changes of `glb_lam_fun`, followed by any sequence of calls of `RepXspace` and
`RepXspace_Prod`, successful or not, without such a change.  Then `RepXspace` returns what it
would return in a fresh process with the current `glb_lam_fun`.

What is missing: a change of `glb_lam_fun` after a call that failed (or after a direct call of
`RepXspace_Prod`), see `C31_fails`. -/
theorem C31_partial (env : XEnv) (lam : LambdaFunction) (es es' : List XEvent)
    (h1 : CleanHistory env (XState.start lam) es) (h2 : ∀ e ∈ es', ¬ e.isSet) (ts : OperatorSum) (a : XArgs) :
    (RepXspace env ts a (history env (XState.start lam) (es ++ es'))).1
      = (RepXspace env ts a
          (XState.start (history env (XState.start lam) (es ++ es')).lam_fun)).1 := by
  obtain ⟨l, hl⟩ := clean_history es lam h1
  have e : history env (XState.start lam) (es ++ es') = history env (XState.start l) es' := by
    unfold history at hl ⊢
    rw [List.foldl_append, hl]
  obtain ⟨h3, h4⟩ := quiet_history es' (XState.start l) (memoOk_start env l) h2
  rw [e, (tracks_rep env a ts _ h3).1, (tracks_rep env a ts _ (memoOk_start env _)).1]
  rfl

/-- A history that sets the lambda function twice and asks for a representation in between is clean. -/
example (env : XEnv) : CleanHistory env (XState.start lambda_acm_fun)
    [.setLam lambda_sho_fun, .sum [] ⟨1, 5 / 2, 0, 3, 0, 6, 0, 4⟩, .setLam lambda_acm_fun] := by
  simp only [CleanHistory, XEvent.Clean, and_true, true_and]
  exact (C30_exists (by simp [LegalRanges]) (memoOk_start env lambda_sho_fun) []).2 (by simp)

/-- The range of the counterexample to C36: the two states (2, 1, 4) and (3, 1, 4). -/
noncomputable def arg23 : XArgs := ⟨1, 5 / 2, 0, 0, 2, 3, 4, 4⟩

theorem arg23_legal : LegalRanges arg23 := by unfold LegalRanges arg23; simp

theorem arg23_states : arg23.states = [(2, 1, 4), (3, 1, 4)] := by
  have h : lbsSO5r3_rngVvarL 2 3 4 (some 4) = .ok [(2, 1, 4), (3, 1, 4)] := by decide +kernel
  have := (states_ok arg23_legal).symm.trans h
  injection this

/-- The range of the counterexample below: the state (2, 1, 2). -/
noncomputable def argPP : XArgs := ⟨1, 5 / 2, 0, 0, 2, 2, 2, 2⟩

theorem argPP_legal : LegalRanges argPP := by unfold LegalRanges argPP; simp

theorem argPP_states : argPP.states = [(2, 1, 2)] := by
  have h : lbsSO5r3_rngVvarL 2 2 2 (some 2) = .ok [(2, 1, 2)] := by decide +kernel
  have := (states_ok argPP_legal).symm.trans h
  injection this

theorem argPP_rdim : argPP.rdim = 1 := rfl

theorem argPP_dim : argPP.dim = 1 := by
  unfold XArgs.dim; rw [argPP_states, argPP_rdim]; rfl

/-- The element of `[pi x pi]_2` on this range. -/
theorem pipi_argPP {env : XEnv} {lam : LambdaFunction} {l : Int} {c : ℝ} (h2 : lam 2 = .ok l)
    (hl : (0 : ℝ) < 5 / 2 + l) (hl1 : (5 / 2 + l : ℝ) ≠ 1) (hc : env.CG (2, 1, 2) (2, 1, 2) (2, 1, 2) = .ok c) :
    ∃ X, RepXspace_PiPi env lam 2 argPP = .ok X ∧
      X.e 0 0 = (-(5 / 2 + l) + ((5 / 2 + l) - 3 / 2) * ((5 / 2 + l) - 1 / 2) / ((5 / 2 + l) - 1)
        + -12 / ((5 / 2 + l) - 1)) * Real.sqrt (60 / 225) * c := by
  have q : QxQred_0 2 = .ok (Real.sqrt (60 / 225)) := by
    unfold QxQred_0 symSqrt
    rw [require_nonnegint_ok (by norm_num), py_bind_ok]
    norm_num
  have s0 : argPP.states[0]? = some (2, 1, 2) := by rw [argPP_states]; rfl
  have hx : xLC env argPP [(1, [.D2b]), (-12, [.bm2])] l l 0
      = .ok (one1 (-(5 / 2 + l) + ((5 / 2 + l) - 3 / 2) * ((5 / 2 + l) - 1 / 2) / ((5 / 2 + l) - 1)
        + -12 / ((5 / 2 + l) - 1))) := by
    unfold xLC
    rw [sub_self]
    exact LC_same (la := env.la) hl hl1 (-12)
  generalize hz : (-(5 / 2 + l) + ((5 / 2 + l) - 3 / 2) * ((5 / 2 + l) - 1 / 2) / ((5 / 2 + l) - 1)
        + -12 / ((5 / 2 + l) - 1) : ℝ) = z at hx ⊢
  have p : pipiBlock env lam 2 argPP 0 0 (2, 1, 2) (2, 1, 2) l
      = .ok (some (one1 (z * -Real.sqrt (60 / 225) * c))) := by
    simp only [pipiBlock, h2, py_bind_ok]
    norm_num
    rw [hx, py_bind_ok, q, py_bind_ok, hc, py_bind_ok, one1_smul, one1_smul]
    norm_num
  let bs : ℕ → ℕ → Option Arr := fun _ _ => some (one1 (z * -Real.sqrt (60 / 225) * c))
  refine ⟨(allCells 1).foldl (blkStep 1 (fun M => if (2 : Int) = 2 then M.neg else M) bs)
    (Arr.zeros (1 * 1) (1 * 1)), ?_, ?_⟩
  · rw [PiPi_eq argPP_legal env _ (by norm_num)]
    refine (fillBlocks_iff (rdim_pos argPP_legal) (keepsShape_neg 2)).2 ⟨bs, ?_, ?_⟩
    · rw [argPP_rdim]
      intro i hi j hj
      rw [argPP_states] at hi hj
      simp only [List.length_cons, List.length_nil] at hi hj
      have : i = 0 ∧ j = 0 := by omega
      obtain ⟨rfl, rfl⟩ := this
      exact ⟨⟨_, _, _, s0, s0, h2, p⟩, fun B hB => by injection hB with hB; subst hB; exact one1_shape _⟩
    · rw [argPP_rdim, argPP_states]; rfl
  · rw [foldl_blkStep_e (neg_scale 2) bs _ (allCells_nodup 1), if_pos (by rw [mem_allCells]; simp)]
    have : writesFrom bs (allCells 1) (0 / 1, 0 / 1) = 1 := rfl
    simp only [bs, Nat.mod_one, one1_e] at this ⊢
    rw [this]
    norm_num

theorem memo_miss {get : XState → Option Arr} {put : Arr → XState → XState} {f : LambdaFunction → Py Arr}
    {s : XState} {x : Arr} (h1 : get s = none) (h2 : f s.lam_fun = .ok x) :
    memo get put f s = (.ok x, put x s) := by
  unfold memo; simp only [h1, h2]

theorem memo_hit {get : XState → Option Arr} {put : Arr → XState → XState} {f : LambdaFunction → Py Arr}
    {s : XState} {x : Arr} (h1 : get s = some x) : memo get put f s = (.ok x, s) := by
  unfold memo; simp only [h1]

theorem rep_pipi {env : XEnv} {s s' : XState} {Z : Arr}
    (h : RepXspace_PiPi_memo env 2 argPP s = (.ok Z, s'))
    (hT : RepXspace_Twin env s'.lam_fun [] [] argPP = .ok (Arr.eye 1)) :
    (RepXspace env [(fun _ => 1, [.PiPi2])] argPP s).1 = .ok ((Z.mul (Arr.eye 1)).smul 1) := by
  have hg : segsOf [.PiPi2] [] [] = [.whole .PiPi2, .twin [] []] := rfl
  have hx : xProd (xMat env argPP) [.PiPi2] s = (.ok (Z.mul (Arr.eye 1)), s') := by
    rw [xProd_eq, hg]
    show ((xMat env argPP).pipi 2 >>= fun x => (xMat env argPP).twin [] [] >>= fun y => pure (x.mul y)) s = _
    have ht : (xMat env argPP).twin [] [] s' = (.ok (Arr.eye 1), s') := Prod.ext hT rfl
    rw [st_bind_ok (show (xMat env argPP).pipi 2 s = (.ok Z, s') from h), st_bind_ok ht]
    rfl
  have hp : RepXspace_Prod env [.PiPi2] argPP s = (.ok (Z.mul (Arr.eye 1)), s') := by
    unfold RepXspace_Prod
    rw [check_ok argPP_legal, st_lift_ok, hx]
  have ht : ∀ xs, RepXspace_Term env (fun _ => 1, [.PiPi2]) xs argPP s
      = (.ok ((Z.mul (Arr.eye 1)).smul 1), s') := by
    intro xs
    unfold RepXspace_Term
    rw [st_bind_ok hp, if_pos ⟨1, rfl⟩]
    rfl
  unfold RepXspace xSumAll
  rw [check_ok argPP_legal, st_lift_ok, lbsXspace_ok argPP_legal]
  rw [st_bind_ok (a := (Z.mul (Arr.eye 1)).smul 1) (s' := s')]
  · rfl
  · simp only []
    rw [st_lift_ok, st_bind_ok (ht _)]
    rfl

theorem mul_eye_e {Z : Arr} (hZ : Square 1 Z) : ((Z.mul (Arr.eye 1)).smul 1).e 0 0 = Z.e 0 0 := by
  have h1 := hZ.1
  have h2 := hZ.2.1
  simp [Arr.smul, Arr.mul, Arr.eye, Arr.of, h1, h2]

/-- C31 fails: suppose the Clebsch-Gordan coefficient (2,1,2)(2,1,2)(2,1,2) is not zero.  A call of
`RepXspace` for a product of `[pi x pi]_2` and an unknown operator fails, and leaves the matrix of `[pi x pi]_2` in the
memo table.  After a change of `glb_lam_fun`, `RepXspace` for `[pi x pi]_2` on the same range returns
the matrix for the old `glb_lam_fun`. -/
theorem C31_fails {env : XEnv} {c : ℝ} (hc : env.CG (2, 1, 2) (2, 1, 2) (2, 1, 2) = .ok c) (h0 : c ≠ 0) :
    ∃ M M', (RepXspace env [(fun _ => 1, [.PiPi2])] argPP (history env (XState.start lambda_acm_fun)
        [.sum [(fun _ => 1, [.PiPi2, .unknown 0])] argPP, .setLam lambda_sho_fun])).1 = .ok M ∧
      (RepXspace env [(fun _ => 1, [.PiPi2])] argPP (XState.start lambda_sho_fun)).1 = .ok M' ∧
      M.e 0 0 ≠ M'.e 0 0 := by
  obtain ⟨X, hX, eX⟩ := pipi_argPP (env := env) (lam := lambda_acm_fun) (l := 0) (by decide +kernel)
    (by norm_num) (by norm_num) hc
  obtain ⟨Y, hY, eY⟩ := pipi_argPP (env := env) (lam := lambda_sho_fun) (l := 2) (by decide +kernel)
    (by norm_num) (by norm_num) hc
  obtain ⟨n, hn, hT⟩ := C29_identity argPP_legal env lambda_sho_fun (states_ok argPP_legal)
    (fun s => s.1) (by rw [argPP_states]; decide +kernel) (by
      rw [argPP_states]
      intro s hs
      simp only [List.mem_cons, List.not_mem_nil, or_false] at hs
      subst hs
      norm_num [argPP])
  have hn2 : n = 1 := by
    rw [dimXspace_ok argPP_legal, argPP_dim] at hn
    injection hn with hn
    omega
  subst hn2
  have hXs : Square 1 X := by
    rw [← argPP_dim]; exact segMat_square (g := .whole .PiPi2) (env := env) (lam := lambda_acm_fun) argPP_legal hX
  have hYs : Square 1 Y := by
    rw [← argPP_dim]; exact segMat_square (g := .whole .PiPi2) (env := env) (lam := lambda_sho_fun) argPP_legal hY
  have hm : RepXspace_PiPi_memo env 2 argPP (XState.start lambda_acm_fun)
      = (.ok X, putPiPi 2 argPP X (XState.start lambda_acm_fun)) := by
    exact memo_miss rfl hX
  have hm' : RepXspace_PiPi_memo env 2 argPP (XState.start lambda_sho_fun)
      = (.ok Y, putPiPi 2 argPP Y (XState.start lambda_sho_fun)) := by
    exact memo_miss rfl hY
  have hstale : (history env (XState.start lambda_acm_fun)
        [.sum [(fun _ => 1, [.PiPi2, .unknown 0])] argPP, .setLam lambda_sho_fun])
      = putPiPi 2 argPP X (XState.start lambda_sho_fun) := by
    have hg : segsOf [.PiPi2, .unknown 0] [] [] = [.whole .PiPi2, .whole (.unknown 0), .twin [] []] := rfl
    have hp : RepXspace_Prod env [.PiPi2, .unknown 0] argPP (XState.start lambda_acm_fun)
        = (.error .valueError, putPiPi 2 argPP X (XState.start lambda_acm_fun)) := by
      unfold RepXspace_Prod
      rw [check_ok argPP_legal, st_lift_ok, xProd_eq, hg]
      show ((xMat env argPP).pipi 2 >>= fun x => _) _ = _
      rw [st_bind_ok (show (xMat env argPP).pipi 2 (XState.start lambda_acm_fun) = _ from hm)]
      rfl
    have hr : (RepXspace env [(fun _ => 1, [.PiPi2, .unknown 0])] argPP (XState.start lambda_acm_fun)).2
        = putPiPi 2 argPP X (XState.start lambda_acm_fun) := by
      unfold RepXspace xSumAll RepXspace_Term
      rw [check_ok argPP_legal, st_lift_ok,
        lbsXspace_ok argPP_legal]
      rw [st_bind_error (e := .valueError) (s' := putPiPi 2 argPP X (XState.start lambda_acm_fun))]
      simp only []
      rw [st_lift_ok, st_bind_error]
      rw [st_bind_error hp]
    show XEvent.run env ((RepXspace env _ argPP (XState.start lambda_acm_fun)).2) (.setLam lambda_sho_fun) = _
    rw [hr]
    rfl
  have hmemo : RepXspace_PiPi_memo env 2 argPP (putPiPi 2 argPP X (XState.start lambda_sho_fun))
      = (.ok X, putPiPi 2 argPP X (XState.start lambda_sho_fun)) := by
    exact memo_hit (get := fun s => s.pipiMemo 2 argPP) (by simp [putPiPi])
  refine ⟨_, _, by rw [hstale]; exact rep_pipi hmemo hT, rep_pipi hm' hT, ?_⟩
  rw [mul_eye_e hXs, mul_eye_e hYs, eX, eY]
  intro e
  have h3 : Real.sqrt (60 / 225) ≠ 0 := (Real.sqrt_pos.2 (by norm_num)).ne'
  have h4 := mul_right_cancel₀ h3 (mul_right_cancel₀ h0 e)
  norm_num at h4

/-- Coefficients and linear algebra that meet the hypotheses of `C31_fails`. -/
example : ∃ env : XEnv, ∃ c : ℝ, env.CG (2, 1, 2) (2, 1, 2) (2, 1, 2) = .ok c ∧ c ≠ 0 ∧ LinAlgOk env.la := by
  obtain ⟨la, h⟩ := linAlg_exists
  exact ⟨⟨fun _ _ _ => .ok 1, la⟩, 1, rfl, one_ne_zero, h⟩

end Acm.Props
