import Verif.Lemmas.FullProd

/-!
# Lemmas on memo tables and sums of operators
-/

namespace Acm

open Acm.Spec

/-- In every state whose memo tables are current, `m` returns what `f` gives for the current
setting, leaves the tables current, and does not change the setting. -/
def Tracks {α : Type} (env : XEnv) (m : StPy XState α) (f : LambdaFunction → Py α) : Prop :=
  ∀ s, MemoOk env s → (m s).1 = f s.lam_fun ∧ MemoOk env (m s).2 ∧ (m s).2.lam_fun = s.lam_fun

theorem memoOk_start (env : XEnv) (lam : LambdaFunction) : MemoOk env (XState.start lam) :=
  ⟨fun _ _ h => (by cases h), fun _ _ _ h => (by cases h), fun _ _ h => (by cases h)⟩

theorem tracks_pure {α : Type} (env : XEnv) (x : α) : Tracks env (pure x) fun _ => .ok x :=
  fun _ h => ⟨rfl, h, rfl⟩

theorem tracks_lift {α : Type} (env : XEnv) (x : Py α) : Tracks env (StPy.lift x) fun _ => x :=
  fun _ h => ⟨rfl, h, rfl⟩

theorem Tracks.bind {α β : Type} {env : XEnv} {m : StPy XState α} {f : LambdaFunction → Py α}
    {k : α → StPy XState β} {g : α → LambdaFunction → Py β} (hm : Tracks env m f)
    (hk : ∀ x, Tracks env (k x) (g x)) : Tracks env (m >>= k) fun lam => f lam >>= fun x => g x lam := by
  intro s hs
  obtain ⟨h1, h2, h3⟩ := hm s hs
  rw [st_bind]
  rcases hms : m s with ⟨e | x, s'⟩
  · rw [hms] at h1 h2 h3
    simp only at h1 h2 h3
    simp only [← h1]
    exact ⟨rfl, h2, h3⟩
  · rw [hms] at h1 h2 h3
    simp only at h1 h2 h3
    obtain ⟨k1, k2, k3⟩ := hk x s' h2
    simp only [← h1]
    exact ⟨by rw [k1, h3]; rfl, k2, k3.trans h3⟩

theorem tracks_twin (env : XEnv) (a : XArgs) (rs : List RadSym) (ss : List OpSym) :
    Tracks env ((xMat env a).twin rs ss) fun lam => RepXspace_Twin env lam rs ss a :=
  fun _ h => ⟨rfl, h, rfl⟩

theorem tracks_memo {env : XEnv} {get : XState → Option Arr} {put : Arr → XState → XState}
    {f : LambdaFunction → Py Arr} (h1 : ∀ s x, MemoOk env s → get s = some x → f s.lam_fun = .ok x)
    (h2 : ∀ s x, MemoOk env s → f s.lam_fun = .ok x → MemoOk env (put x s) ∧ (put x s).lam_fun = s.lam_fun) :
    Tracks env (memo get put f) f := by
  intro s hs
  unfold memo
  cases hg : get s with
  | some x => exact ⟨(h1 s x hs hg).symm, hs, rfl⟩
  | none =>
    simp only
    cases hf : f s.lam_fun with
    | error e => exact ⟨rfl, hs, rfl⟩
    | ok x => exact ⟨rfl, (h2 s x hs hf).1, (h2 s x hs hf).2⟩

open Classical in
theorem tracks_pi (env : XEnv) (a : XArgs) :
    Tracks env (RepXspace_Pi_memo env a) fun lam => RepXspace_Pi env lam a := by
  refine tracks_memo (fun s x hs h => hs.pi a x h) fun s x hs h => ⟨⟨?_, hs.pipi, hs.piqpi⟩, rfl⟩
  intro b y hb
  simp only [putPi] at hb ⊢
  by_cases hab : b = a
  · subst hab
    rw [Function.update_self] at hb
    injection hb with hb
    exact hb ▸ h
  · rw [Function.update_of_ne hab] at hb
    exact hs.pi b y hb

open Classical in
theorem tracks_pipi (env : XEnv) (L : Int) (a : XArgs) :
    Tracks env (RepXspace_PiPi_memo env L a) fun lam => RepXspace_PiPi env lam L a := by
  refine tracks_memo (fun s x hs h => hs.pipi L a x h) fun s x hs h => ⟨⟨hs.pi, ?_, hs.piqpi⟩, rfl⟩
  intro K b y hb
  simp only [putPiPi] at hb ⊢
  by_cases hK : K = L
  · subst hK
    rw [Function.update_self] at hb
    by_cases hab : b = a
    · subst hab
      rw [Function.update_self] at hb
      injection hb with hb
      exact hb ▸ h
    · rw [Function.update_of_ne hab] at hb
      exact hs.pipi K b y hb
  · rw [Function.update_of_ne hK] at hb
    exact hs.pipi K b y hb

open Classical in
theorem tracks_piqpi (env : XEnv) (a : XArgs) :
    Tracks env (RepXspace_PiqPi_memo env a) fun lam => RepXspace_PiqPi env lam a := by
  refine tracks_memo (fun s x hs h => hs.piqpi a x h) fun s x hs h => ⟨⟨hs.pi, hs.pipi, ?_⟩, rfl⟩
  intro b y hb
  simp only [putPiqPi] at hb ⊢
  by_cases hab : b = a
  · subst hab
    rw [Function.update_self] at hb
    injection hb with hb
    exact hb ▸ h
  · rw [Function.update_of_ne hab] at hb
    exact hs.piqpi b y hb

/-- The representation of a segment, without memo tables. -/
noncomputable def segMat (env : XEnv) (a : XArgs) (lam : LambdaFunction) : Seg → Py Arr
  | .twin rs ss => RepXspace_Twin env lam rs ss a
  | .whole .Pi => RepXspace_Pi env lam a
  | .whole .PiPi2 => RepXspace_PiPi env lam 2 a
  | .whole .PiPi4 => RepXspace_PiPi env lam 4 a
  | .whole .PiqPi => RepXspace_PiqPi env lam a
  | .whole _ => throw .valueError

theorem tracks_seg (env : XEnv) (a : XArgs) (g : Seg) :
    Tracks env (g.eval (xMat env a)) fun lam => segMat env a lam g := by
  cases g with
  | twin rs ss => exact tracks_twin env a rs ss
  | whole op =>
    cases op with
    | Pi => exact tracks_pi env a
    | PiPi2 => exact tracks_pipi env 2 a
    | PiPi4 => exact tracks_pipi env 4 a
    | PiqPi => exact tracks_piqpi env a
    | _ => exact tracks_lift env _

/-- The product of the segments, without memo tables. -/
noncomputable def segsMat (env : XEnv) (a : XArgs) (lam : LambdaFunction) (x : Arr) : List Seg → Py Arr
  | [] => pure x
  | g :: gs => do
    let y ← segMat env a lam g
    segsMat env a lam (x.mul y) gs

theorem tracks_segs (env : XEnv) (a : XArgs) (gs : List Seg) (x : Arr) :
    Tracks env (evalSegs (xMat env a) x gs) fun lam => segsMat env a lam x gs := by
  induction gs generalizing x with
  | nil => exact tracks_pure env x
  | cons g gs ih => exact (tracks_seg env a g).bind fun y => ih (x.mul y)

/-- The matrix of a product, without memo tables. -/
noncomputable def prodMat (env : XEnv) (a : XArgs) (ops : List OpSym) (lam : LambdaFunction) : Py Arr := do
  a.check
  match segsOf ops [] [] with
  | [] => throw .assertionError
  | g :: gs => do
    let x ← segMat env a lam g
    segsMat env a lam x gs

theorem tracks_prod (env : XEnv) (ops : List OpSym) (a : XArgs) :
    Tracks env (RepXspace_Prod env ops a) (prodMat env a ops) := by
  unfold RepXspace_Prod prodMat
  refine (tracks_lift env a.check).bind fun _ => ?_
  have : xProd (xMat env a) ops = evalAll (xMat env a) (segsOf ops [] []) := by
    funext s; exact xProd_eq _ _ _
  rw [this]
  cases segsOf ops [] [] with
  | nil => exact tracks_lift env _
  | cons g gs => exact (tracks_seg env a g).bind fun x => tracks_segs env a gs x

theorem prodMat_eq (env : XEnv) (ops : List OpSym) (a : XArgs) (lam : LambdaFunction) :
    (RepXspace_Prod env ops a (XState.start lam)).1 = prodMat env a ops lam :=
  (tracks_prod env ops a _ (memoOk_start env lam)).1

open Classical in
/-- The matrix of a term. -/
noncomputable def scaleTerm (t : Coeff × OperatorProduct) (xs : List XspaceLabel) (M : Arr) : Arr :=
  if ∃ c : ℝ, t.1 = fun _ => c then M.smul (t.1 (0, 0, 0, 0)) else M.scaleCols (xs.map t.1)

/-- The matrix of a term, without memo tables. -/
noncomputable def termMat (env : XEnv) (xs : List XspaceLabel) (a : XArgs) (lam : LambdaFunction)
    (t : Coeff × OperatorProduct) : Py Arr := do
  let M ← prodMat env a t.2 lam
  pure (scaleTerm t xs M)

theorem tracks_term (env : XEnv) (t : Coeff × OperatorProduct) (xs : List XspaceLabel) (a : XArgs) :
    Tracks env (RepXspace_Term env t xs a) fun lam => termMat env xs a lam t := by
  unfold RepXspace_Term
  refine (tracks_prod env t.2 a).bind fun M => ?_
  unfold scaleTerm
  split_ifs
  · exact tracks_pure env _
  · exact tracks_pure env _

/-- The sum of the remaining terms, without memo tables. -/
noncomputable def sumMat (env : XEnv) (xs : List XspaceLabel) (a : XArgs) (lam : LambdaFunction) :
    OperatorSum → Arr → Py Arr
  | [], M => pure M
  | t :: ts, M => do
    let x ← termMat env xs a lam t
    sumMat env xs a lam ts (M.add x)

theorem tracks_sum (env : XEnv) (xs : List XspaceLabel) (a : XArgs) (ts : OperatorSum) (M : Arr) :
    Tracks env (xSum env xs a ts M) fun lam => sumMat env xs a lam ts M := by
  induction ts generalizing M with
  | nil => exact tracks_pure env M
  | cons t ts ih => exact (tracks_term env t xs a).bind fun x => ih _

/-- The matrix of a sum, without memo tables. -/
noncomputable def allMat (env : XEnv) (a : XArgs) (ts : OperatorSum) (lam : LambdaFunction) : Py Arr :=
  match ts with
  | [] => do
    let d ← dimXspace a.nu_min a.nu_max a.v_min a.v_max a.L_min (some a.L_max)
    pure (Arr.zeros d.toNat d.toNat)
  | t :: ts => do
    let xs ← lbsXspace a.nu_min a.nu_max a.v_min a.v_max a.L_min (some a.L_max)
    let M ← termMat env xs a lam t
    sumMat env xs a lam ts M

theorem tracks_all (env : XEnv) (a : XArgs) (ts : OperatorSum) :
    Tracks env (xSumAll env ts a) (allMat env a ts) := by
  cases ts with
  | nil => exact tracks_lift env _
  | cons t ts =>
    exact (tracks_lift env _).bind fun xs => (tracks_term env t xs a).bind fun M => tracks_sum env xs a ts M

theorem tracks_clear (env : XEnv) : Tracks env clearMemo fun _ => .ok () :=
  fun s _ => ⟨rfl, memoOk_start env s.lam_fun, rfl⟩

theorem tracks_rep (env : XEnv) (a : XArgs) (ts : OperatorSum) :
    Tracks env (RepXspace env ts a) fun lam =>
    a.check >>= fun _ => allMat env a ts lam := by
  unfold RepXspace
  have h := (tracks_lift env a.check).bind fun _ => (tracks_all env a ts).bind fun M =>
    (tracks_clear env).bind fun _ => tracks_pure env M
  intro s hs
  have := h s hs
  refine ⟨this.1.trans ?_, this.2⟩
  cases a.check with
  | error e => rfl
  | ok u =>
    simp only [py_bind_ok]
    cases allMat env a ts s.lam_fun <;> rfl

/-- After a successful call the memo tables are empty. -/
theorem rep_clears {env : XEnv} {a : XArgs} {ts : OperatorSum} {s s' : XState} {M : Arr}
    (h : RepXspace env ts a s = (.ok M, s')) : ∃ lam, s' = XState.start lam := by
  unfold RepXspace at h
  rw [st_bind] at h
  cases hc : a.check with
  | error e => simp only [st_lift, hc] at h; cases h
  | ok u =>
    simp only [st_lift, hc] at h
    rw [st_bind] at h
    rcases hx : xSumAll env ts a s with ⟨e | x, s1⟩
    · rw [hx] at h; cases h
    · rw [hx] at h
      simp only at h
      rw [st_bind] at h
      simp only [clearMemo, st_pure] at h
      exact ⟨s1.lam_fun, (Prod.mk.inj h).2.symm⟩

/-! ### shapes -/

theorem fill_square {r n : ℕ} (hr : 0 < r) {post : Arr → Arr} {c : ℝ}
    (hp : KeepsShape post) (hc : ∀ M p q, (post M).e p q = c * M.e p q) {lam : LambdaFunction}
    {labels : List Label} {body : BlockFun} {M : Arr}
    (h : fillBlocks lam r n labels body post = .ok M) : Square (n * r) M := by
  obtain ⟨bs, _, rfl⟩ := (fillBlocks_iff hr hp).1 h
  have hs := foldl_blkStep_shape (r := r) hp bs (allCells n) (Arr.zeros (n * r) (n * r))
  refine ⟨hs.1, hs.2, fun p q hpq => ?_⟩
  rw [foldl_blkStep_e hc bs _ (allCells_nodup n), if_neg]
  · have hz : (Arr.zeros (n * r) (n * r)).e p q = 0 := by simp [Arr.zeros, Arr.of]
    rw [hz, mul_zero]
  · rw [mem_allCells, Nat.div_lt_iff_lt_mul hr, Nat.div_lt_iff_lt_mul hr]
    exact hpq

theorem keepsShape_neg (L : Int) : KeepsShape fun M => if L = 2 then M.neg else M := by
  intro M
  by_cases h : L = 2
  · simp only [if_pos h, Arr.neg, and_self]
  · simp only [if_neg h, and_self]

theorem neg_scale (L : Int) (M : Arr) (p q : ℕ) :
    ((fun M : Arr => if L = 2 then M.neg else M) M).e p q = (if L = 2 then -1 else 1) * M.e p q := by
  by_cases h : L = 2
  · simp only [if_pos h, Arr.neg]; ring
  · simp only [if_neg h]; ring

theorem segMat_square {env : XEnv} {a : XArgs} (h : LegalRanges a) {lam : LambdaFunction} {g : Seg}
    {M : Arr} (hM : segMat env a lam g = .ok M) : Square a.dim M := by
  have hr := rdim_pos h
  have hid : ∀ (M : Arr) (p q : ℕ), (id M : Arr).e p q = 1 * M.e p q := fun M p q => by simp
  have hks : KeepsShape id := fun _ => ⟨rfl, rfl⟩
  cases g with
  | twin rs ss =>
    have hM' : RepXspace_Twin env lam rs ss a = .ok M := hM
    obtain ⟨S, hS⟩ := Twin_sph h hM'
    rw [Twin_eq h env lam rs ss hS] at hM'
    exact fill_square hr hks hid hM'
  | whole op =>
    cases op with
    | Pi =>
      have hM' : RepXspace_Pi env lam a = .ok M := hM
      rw [Pi_eq h] at hM'
      exact fill_square hr hks hid hM'
    | PiPi2 =>
      have hM' : RepXspace_PiPi env lam 2 a = .ok M := hM
      rw [PiPi_eq h env lam (by norm_num)] at hM'
      exact fill_square hr (keepsShape_neg 2) (neg_scale 2) hM'
    | PiPi4 =>
      have hM' : RepXspace_PiPi env lam 4 a = .ok M := hM
      rw [PiPi_eq h env lam (by norm_num)] at hM'
      exact fill_square hr (keepsShape_neg 4) (neg_scale 4) hM'
    | PiqPi =>
      have hM' : RepXspace_PiqPi env lam a = .ok M := hM
      rw [PiqPi_eq h] at hM'
      exact fill_square hr hks hid hM'
    | _ => cases hM

theorem segsMat_square {env : XEnv} {a : XArgs} (h : LegalRanges a) {lam : LambdaFunction} {gs : List Seg}
    {x M : Arr} (hx : Square a.dim x) (hM : segsMat env a lam x gs = .ok M) : Square a.dim M := by
  induction gs generalizing x with
  | nil => injection hM with hM; exact hM ▸ hx
  | cons g gs ih =>
    rw [segsMat] at hM
    obtain ⟨y, hy, hM⟩ := py_bind_eq_ok hM
    exact ih (square_mul hx.1 (segMat_square h hy).2.1) hM

theorem prodMat_square {env : XEnv} {a : XArgs} (h : LegalRanges a) {lam : LambdaFunction}
    {ops : List OpSym} {M : Arr} (hM : prodMat env a ops lam = .ok M) : Square a.dim M := by
  unfold prodMat at hM
  rw [check_ok h, py_bind_ok] at hM
  cases hg : segsOf ops [] [] with
  | nil => rw [hg] at hM; cases hM
  | cons g gs =>
    rw [hg] at hM
    obtain ⟨x, hx, hM⟩ := py_bind_eq_ok hM
    exact segsMat_square h (segMat_square h hx) hM

/-- A term multiplies each column by the coefficient at the label of the column. -/
theorem scaleTerm_e {t : Coeff × OperatorProduct} {xs : List XspaceLabel} {M : Arr}
    (hM : Square xs.length M) {p q : ℕ} {x : XspaceLabel} (hp : p < xs.length) (hq : xs[q]? = some x) :
    (scaleTerm t xs M).e p q = t.1 x * M.e p q := by
  have hq' := (List.getElem?_eq_some_iff.1 hq).1
  unfold scaleTerm
  split_ifs with h
  · obtain ⟨c, hc⟩ := h
    simp only [Arr.smul, Arr.of, hM.1, hM.2.1, if_pos (show p < xs.length ∧ q < xs.length from ⟨hp, hq'⟩), hc]
    ring
  · simp only [Arr.scaleCols, Arr.of, hM.1, hM.2.1,
      if_pos (show p < xs.length ∧ q < xs.length from ⟨hp, hq'⟩)]
    rw [List.getD_eq_getElem?_getD, List.getElem?_map, hq]
    rfl

theorem scaleTerm_square {t : Coeff × OperatorProduct} {xs : List XspaceLabel} {M : Arr}
    (hM : Square xs.length M) : Square xs.length (scaleTerm t xs M) := by
  unfold scaleTerm
  split_ifs
  · exact ⟨hM.1, hM.2.1, fun p q h => by
      simp only [Arr.smul, Arr.of, hM.1, hM.2.1]; rw [if_neg h]⟩
  · exact ⟨hM.1, hM.2.1, fun p q h => by
      simp only [Arr.scaleCols, Arr.of, hM.1, hM.2.1]; rw [if_neg h]⟩

theorem square_add {n : ℕ} {A B : Arr} (hA : Square n A) : Square n (A.add B) :=
  ⟨hA.1, hA.2.1, fun p q h => by simp only [Arr.add, Arr.of, hA.1, hA.2.1]; rw [if_neg h]⟩

theorem add_e {n : ℕ} {A B : Arr} (hA : Square n A) {p q : ℕ} (hp : p < n) (hq : q < n) :
    (A.add B).e p q = A.e p q + B.e p q := by
  simp only [Arr.add, Arr.of, hA.1, hA.2.1]
  rw [if_pos ⟨hp, hq⟩]

theorem sumMat_iff {env : XEnv} {a : XArgs} {lam : LambdaFunction} {ts : OperatorSum}
    {M M' : Arr} (hM : Square a.dim M) :
    sumMat env a.xlabels a lam ts M = .ok M' ↔ ∃ Ps,
      List.Forall₂ (fun t P => prodMat env a t.2 lam = .ok P) ts Ps ∧
      M' = (List.zipWith (fun t P => scaleTerm t a.xlabels P) ts Ps).foldl Arr.add M := by
  induction ts generalizing M with
  | nil =>
    constructor
    · intro e
      injection e with e
      exact ⟨[], .nil, e.symm⟩
    · rintro ⟨Ps, h1, rfl⟩
      cases h1
      rfl
  | cons t ts ih =>
    rw [sumMat]
    constructor
    · intro e
      obtain ⟨x, hx, e⟩ := py_bind_eq_ok e
      obtain ⟨P, hP, hx⟩ := py_bind_eq_ok hx
      injection hx with hx
      obtain ⟨Ps, h1, h2⟩ := (ih (square_add hM)).1 e
      exact ⟨P :: Ps, .cons hP h1, by rw [h2, ← hx]; rfl⟩
    · rintro ⟨Ps, h1, rfl⟩
      cases h1 with
      | cons hP h1 =>
        rename_i P Ps
        rw [show termMat env a.xlabels a lam t = .ok (scaleTerm t a.xlabels P) by
          unfold termMat; rw [hP]; rfl, py_bind_ok]
        exact (ih (square_add hM)).2 ⟨Ps, h1, rfl⟩

end Acm
