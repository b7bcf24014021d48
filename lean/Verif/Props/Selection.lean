import Verif.Spec.Selection
import Verif.Props.RootsFull
import Verif.Props.Symmetric
import Verif.Props.FullPi
import Verif.Props.FullAmp
import Verif.Props.Operators
import Verif.Props.Globals
import Verif.Props.Scale

/-!
# Property C102: selection rules of the matrices on the whole space
-/

namespace Acm.Props

open Acm Acm.Spec

/-! ### relations that add up -/

/-- A relation between labels for each weight, such that weights add up in products. -/
structure Graded (Q : ℕ → Label → Label → Prop) : Prop where
  refl : ∀ x, Q 0 x x
  comp : ∀ m n x y z, Q m x y → Q n y z → Q (m + n) x z

theorem graded_L : Graded fun n x y => |x.2.2 - y.2.2| ≤ n where
  refl x := by simp
  comp m n x y z h1 h2 := by
    have := abs_add_le (x.2.2 - y.2.2) (y.2.2 - z.2.2)
    rw [sub_add_sub_cancel] at this
    push_cast
    linarith

theorem graded_v : Graded fun n x y => |x.1 - y.1| ≤ n where
  refl x := by simp
  comp m n x y z h1 h2 := by
    have := abs_add_le (x.1 - y.1) (y.1 - z.1)
    rw [sub_add_sub_cancel] at this
    push_cast
    linarith

theorem graded_parity : Graded fun n x y => (x.1 - y.1 - n) % 2 = 0 where
  refl x := by simp
  comp m n x y z h1 h2 := by push_cast; omega

variable {Q : ℕ → Label → Label → Prop}

theorem items_graded (hQ : Graded Q) {w : OpSym → ℕ} {CG : CGFun} {states : List Label}
    (hi : ∀ (s : OpSym) (M : Matrix (Fin states.length) (Fin states.length) ℝ), ItemMatrix CG states (.sym s) M →
      ∀ i j, M i j ≠ 0 → Q (w s) states[i] states[j]) : ∀ {ss : List OpSym}
    {Ms : List (Matrix (Fin states.length) (Fin states.length) ℝ)},
    List.Forall₂ (ItemMatrix CG states) (ss.map .sym) Ms → ∀ i j, Ms.prod i j ≠ 0 →
    Q (ss.map w).sum states[i] states[j]
  | [], _, .nil, i, j, h0 => by
    have : i = j := by
      by_contra hc
      exact h0 (by rw [List.prod_nil, Matrix.one_apply_ne hc])
    subst this
    exact hQ.refl _
  | s :: ss, M :: Ms, .cons h1 h2, i, j, h0 => by
    rw [List.prod_cons, Matrix.mul_apply] at h0
    obtain ⟨k, _, hk⟩ := Finset.exists_ne_zero_of_sum_ne_zero h0
    rw [List.map_cons, List.sum_cons]
    exact hQ.comp _ _ _ _ _ (hi s M h1 i k (left_ne_zero_of_mul hk)) (items_graded hQ hi h2 k j (right_ne_zero_of_mul hk))

/-- The labels of elements that are not zero are related. -/
def Rel (a : XArgs) (R : Label → Label → Prop) (M : Arr) : Prop :=
  ∀ p q f i, a.xlabels[p]? = some f → a.xlabels[q]? = some i → M.e p q ≠ 0 → R f.2 i.2

theorem rel_mul (hQ : Graded Q) {a : XArgs} {m n : ℕ} {A B : Arr} (hA : Square a.dim A) (hB : Square a.dim B)
    (h1 : Rel a (Q m) A) (h2 : Rel a (Q n) B) : Rel a (Q (m + n)) (A.mul B) := by
  intro p q f i hp hq h0
  have hp' : p < a.dim := by rw [← length_xlabels]; exact (List.getElem?_eq_some_iff.1 hp).1
  have hq' : q < a.dim := by rw [← length_xlabels]; exact (List.getElem?_eq_some_iff.1 hq).1
  have e := congrFun (congrFun (mat_mul hA.1 hA.2.1 hB.2.1) ⟨p, hp'⟩) ⟨q, hq'⟩
  rw [Matrix.mul_apply] at e
  simp only [mat, Matrix.of_apply] at e
  rw [e] at h0
  obtain ⟨k, _, hk⟩ := Finset.exists_ne_zero_of_sum_ne_zero h0
  have hk' : (k : ℕ) < a.xlabels.length := by rw [length_xlabels]; exact k.2
  have hk2 := List.getElem?_eq_getElem hk'
  exact hQ.comp _ _ _ _ _ (h1 p k f _ hp hk2 (left_ne_zero_of_mul hk)) (h2 k q _ i hk2 hq (right_ne_zero_of_mul hk))

theorem twin_rel (hQ : Graded Q) {w : OpSym → ℕ} {env : XEnv} {lam : LambdaFunction} {a : XArgs} (h : LegalRanges a)
    (hi : ∀ (s : OpSym) (M : Matrix (Fin a.states.length) (Fin a.states.length) ℝ), ItemMatrix env.CG a.states (.sym s) M →
      ∀ i j, M i j ≠ 0 → Q (w s) a.states[i] a.states[j]) {rs : List RadSym} {ss : List OpSym} {M : Arr}
    (hM : RepXspace_Twin env lam rs ss a = .ok M) : Rel a (Q (ss.map w).sum) M := by
  obtain ⟨_, S, hS, hel⟩ := C28_elements h env lam rs ss (lbsXspace_ok h) (states_ok h) hM
  intro p q f i hp hq h0
  obtain ⟨x, y, lf, li, hx, hy, _, _, hz, _⟩ := hel p q f.1 i.1 f.2 i.2 hp hq
  have hne : S.e x y ≠ 0 := fun e => h0 (hz e)
  obtain ⟨n1, n2, n3, n4⟩ : 0 ≤ a.v_min ∧ 0 ≤ a.v_max ∧ 0 ≤ a.L_min ∧ 0 ≤ a.L_max := by
    have := h.2.1; have := h.2.2; omega
  have hS' : RepSO5r3_Prod_wrk env.CG (ss.map .sym) (a.v_min.toNat : ℕ) (a.v_max.toNat : ℕ) (a.L_min.toNat : ℕ)
      (a.L_max.toNat : ℕ) = .ok S := by
    rw [Int.toNat_of_nonneg n1, Int.toNat_of_nonneg n2, Int.toNat_of_nonneg n3, Int.toNat_of_nonneg n4]; exact hS
  have hst : lbsSO5r3_rngVvarL (a.v_min.toNat : ℕ) (a.v_max.toNat : ℕ) (a.L_min.toNat : ℕ)
      (some ((a.L_max.toNat : ℕ) : Int)) = .ok a.states := by
    rw [Int.toNat_of_nonneg n1, Int.toNat_of_nonneg n2, Int.toNat_of_nonneg n3, Int.toNat_of_nonneg n4]; exact states_ok h
  obtain ⟨Ms, k1, k2⟩ := C72_only (by have := h.2.1; omega) (by have := h.2.2; omega) hst _ S hS'
  obtain ⟨hx', ex⟩ := List.getElem?_eq_some_iff.1 hx
  obtain ⟨hy', ey⟩ := List.getElem?_eq_some_iff.1 hy
  have e : Ms.prod ⟨x, hx'⟩ ⟨y, hy'⟩ = S.e x y := by rw [← k2]; rfl
  have := items_graded hQ hi k1 ⟨x, hx'⟩ ⟨y, hy'⟩ (by rw [e]; exact hne)
  rw [← ex, ← ey]
  exact this

/-- A matrix filled block by block, whatever is done to the sign in between. -/
theorem fill_rel {R : Label → Label → Prop} {a : XArgs} (h : LegalRanges a) {lam : LambdaFunction} {body : BlockFun}
    {post : Arr → Arr} {c : ℝ} (hp : KeepsShape post) (hc : ∀ M p q, (post M).e p q = c * M.e p q)
    (hb : ∀ i j init fin l B, body i j init fin l = .ok (some B) → R fin init) {M : Arr}
    (hM : fillBlocks lam a.rdim a.states.length a.states body post = .ok M) : Rel a R M := by
  obtain ⟨bs, h1, rfl⟩ := (fillBlocks_iff (rdim_pos h) hp).1 hM
  intro p q f g hfp hgq h0
  obtain ⟨i, x, rfl, hx, hi, _⟩ := xlabels_split (nu := f.1) (s := f.2) hfp
  obtain ⟨j, y, rfl, hy, hj, _⟩ := xlabels_split (nu := g.1) (s := g.2) hgq
  have hi' := (List.getElem?_eq_some_iff.1 hi).1
  have hj' := (List.getElem?_eq_some_iff.1 hj).1
  have d1 : ∀ i x, x < a.rdim → (i * a.rdim + x) / a.rdim = i := by
    intro i x hx
    rw [Nat.mul_comm, Nat.mul_add_div (rdim_pos h), Nat.div_eq_of_lt hx, Nat.add_zero]
  obtain ⟨⟨init, fin, l, e1, e2, e3, e4⟩, _⟩ := h1 i hi' j hj'
  rw [hj] at e1
  rw [hi] at e2
  injection e1 with e1
  injection e2 with e2
  rw [e1, e2]
  cases hbs : bs i j with
  | some B => rw [hbs] at e4; exact hb _ _ _ _ _ _ e4
  | none =>
    exfalso
    apply h0
    rw [foldl_blkStep_e hc bs _ (allCells_nodup _), d1 i x hx, d1 j y hy, if_pos (mem_allCells.2 ⟨hi', hj'⟩), hbs]
    simp [Arr.zeros, Arr.of]

/-- What the blocks of the momentum operators are filled for. -/
theorem piBlock_some {env : XEnv} {lam : LambdaFunction} {a : XArgs} {i j : ℕ} {init fin : Label} {l : Int} {B : Arr}
    (h : piBlock env lam a i j init fin l = .ok (some B)) :
    |fin.2.2 - init.2.2| ≤ 2 ∧ (fin.1 - init.1 = 1 ∨ fin.1 - init.1 = -1) := by
  obtain ⟨v, al, L⟩ := init
  obtain ⟨v', al', L'⟩ := fin
  unfold piBlock at h
  simp only at h ⊢
  split_ifs at h with h1 h2 h3
  · cases h
  · exact ⟨by rw [abs_le]; omega, .inl h2⟩
  · exact ⟨by rw [abs_le]; omega, .inr h3⟩
  · obtain ⟨_, _, h⟩ := py_bind_eq_ok h
    cases h

theorem pipiBlock_some {env : XEnv} {lam : LambdaFunction} {K : Int} {a : XArgs} {i j : ℕ} {init fin : Label} {l : Int} {B : Arr}
    (h : pipiBlock env lam K a i j init fin l = .ok (some B)) :
    |fin.2.2 - init.2.2| ≤ K ∧ (fin.1 - init.1 = 2 ∨ fin.1 - init.1 = -2 ∨ fin.1 - init.1 = 0) := by
  obtain ⟨v, al, L⟩ := init
  obtain ⟨v', al', L'⟩ := fin
  unfold pipiBlock at h
  simp only at h ⊢
  split_ifs at h with h1 h2 h3 h4
  · cases h
  · exact ⟨by rw [abs_le]; omega, .inl h2⟩
  · exact ⟨by rw [abs_le]; omega, .inr (.inl h3)⟩
  · exact ⟨by rw [abs_le]; omega, .inr (.inr h4)⟩
  · obtain ⟨_, _, h⟩ := py_bind_eq_ok h
    cases h

theorem piqpiBlock_some {env : XEnv} {lam : LambdaFunction} {a : XArgs} {i j : ℕ} {init fin : Label} {l : Int} {B : Arr}
    (h : piqpiBlock env lam a i j init fin l = .ok (some B)) :
    fin.2.2 = init.2.2 ∧ (fin.1 - init.1 = 3 ∨ fin.1 - init.1 = -3 ∨ fin.1 - init.1 = 1 ∨ fin.1 - init.1 = -1) := by
  obtain ⟨v, al, L⟩ := init
  obtain ⟨v', al', L'⟩ := fin
  unfold piqpiBlock at h
  simp only at h ⊢
  split_ifs at h with h1 h2 h3 h4 h5
  · cases h
  · exact ⟨not_not.1 h1, .inl h2⟩
  · exact ⟨not_not.1 h1, .inr (.inl h3)⟩
  · exact ⟨not_not.1 h1, .inr (.inr (.inl h4))⟩
  · exact ⟨not_not.1 h1, .inr (.inr (.inr h5))⟩
  · obtain ⟨_, _, h⟩ := py_bind_eq_ok h
    cases h

/-- What a relation and its weights must satisfy for the single operators. -/
structure Obeyed (Q : ℕ → Label → Label → Prop) (w : OpSym → ℕ) (CG : CGFun) (states : List Label) : Prop where
  graded : Graded Q
  item : ∀ (s : OpSym) (M : Matrix (Fin states.length) (Fin states.length) ℝ), ItemMatrix CG states (.sym s) M →
      ∀ i j, M i j ≠ 0 → Q (w s) states[i] states[j]
  pi : ∀ x y : Label, |x.2.2 - y.2.2| ≤ 2 → x.1 - y.1 = 1 ∨ x.1 - y.1 = -1 → Q (w .Pi) x y
  pipi2 : ∀ x y : Label, |x.2.2 - y.2.2| ≤ 2 → x.1 - y.1 = 2 ∨ x.1 - y.1 = -2 ∨ x.1 - y.1 = 0 → Q (w .PiPi2) x y
  pipi4 : ∀ x y : Label, |x.2.2 - y.2.2| ≤ 4 → x.1 - y.1 = 2 ∨ x.1 - y.1 = -2 ∨ x.1 - y.1 = 0 → Q (w .PiPi4) x y
  piqpi : ∀ x y : Label, x.2.2 = y.2.2 → x.1 - y.1 = 3 ∨ x.1 - y.1 = -3 ∨ x.1 - y.1 = 1 ∨ x.1 - y.1 = -1 → Q (w .PiqPi) x y
  radial : ∀ r, w (.rad r) = 0

/-- The weight of a segment. -/
def segWeight (w : OpSym → ℕ) : Seg → ℕ
  | .twin _ ss => (ss.map w).sum
  | .whole op => w op

theorem segsOf_weight {w : OpSym → ℕ} (hr : ∀ r, w (.rad r) = 0) : ∀ (ops : List OpSym) (rs : List RadSym) (ss : List OpSym),
    ((segsOf ops rs ss).map (segWeight w)).sum = (ss.map w).sum + (ops.map w).sum := by
  intro ops
  induction ops with
  | nil => intro rs ss; simp [segsOf, segWeight]
  | cons op ops ih =>
    intro rs ss
    unfold segsOf
    cases h : op.radial? with
    | some r =>
      obtain ⟨rfl, _⟩ := radial?_some h
      simp only [ih, List.map_cons, List.sum_cons, hr, zero_add]
    | none =>
      simp only
      split_ifs with h1 h2
      · rw [ih]; simp; ring
      · simp [ih, segWeight]
      · push Not at h2
        rw [h2.2]
        simp [ih, segWeight]

variable {w : OpSym → ℕ} {env : XEnv} {lam : LambdaFunction} {a : XArgs}

theorem seg_rel (h : LegalRanges a) (ho : Obeyed Q w env.CG a.states) {g : Seg} {M : Arr}
    (hM : segMat env a lam g = .ok M) : Rel a (Q (segWeight w g)) M := by
  have hid : ∀ (M : Arr) (p q : ℕ), (id M : Arr).e p q = 1 * M.e p q := fun M p q => by simp
  have hks : KeepsShape id := fun _ => ⟨rfl, rfl⟩
  cases g with
  | twin rs ss => exact twin_rel ho.graded h ho.item hM
  | whole op =>
    cases op with
    | Pi =>
      have hM' : RepXspace_Pi env lam a = .ok M := hM
      rw [Pi_eq h] at hM'
      refine fill_rel (body := piBlock env lam a) h hks hid (fun _ _ _ _ _ _ hb => ho.pi _ _ (piBlock_some hb).1 (piBlock_some hb).2) hM'
    | PiPi2 =>
      have hM' : RepXspace_PiPi env lam 2 a = .ok M := hM
      rw [PiPi_eq h env lam (by norm_num)] at hM'
      exact fill_rel (body := pipiBlock env lam 2 a) h (keepsShape_neg 2) (neg_scale 2)
        (fun _ _ _ _ _ _ hb => ho.pipi2 _ _ (pipiBlock_some hb).1 (pipiBlock_some hb).2) hM'
    | PiPi4 =>
      have hM' : RepXspace_PiPi env lam 4 a = .ok M := hM
      rw [PiPi_eq h env lam (by norm_num)] at hM'
      exact fill_rel (body := pipiBlock env lam 4 a) h (keepsShape_neg 4) (neg_scale 4)
        (fun _ _ _ _ _ _ hb => ho.pipi4 _ _ (pipiBlock_some hb).1 (pipiBlock_some hb).2) hM'
    | PiqPi =>
      have hM' : RepXspace_PiqPi env lam a = .ok M := hM
      rw [PiqPi_eq h] at hM'
      exact fill_rel (body := piqpiBlock env lam a) h hks hid (fun _ _ _ _ _ _ hb => ho.piqpi _ _ (piqpiBlock_some hb).1 (piqpiBlock_some hb).2) hM'
    | _ => cases hM

theorem segs_rel (h : LegalRanges a) (ho : Obeyed Q w env.CG a.states) : ∀ {gs : List Seg} {x M : Arr} {n : ℕ},
    Square a.dim x → Rel a (Q n) x → segsMat env a lam x gs = .ok M →
    Rel a (Q (n + (gs.map (segWeight w)).sum)) M := by
  intro gs
  induction gs with
  | nil =>
    intro x M n _ hx hM
    injection hM with hM
    simpa [← hM] using hx
  | cons g gs ih =>
    intro x M n sq hx hM
    rw [segsMat] at hM
    obtain ⟨y, hy, hM⟩ := py_bind_eq_ok hM
    have sy := segMat_square h hy
    have := ih (square_mul sq.1 sy.2.1) (rel_mul ho.graded sq sy hx (seg_rel h ho hy)) hM
    rw [List.map_cons, List.sum_cons, ← add_assoc]
    exact this

theorem prod_rel (h : LegalRanges a) (ho : Obeyed Q w env.CG a.states) {ops : List OpSym} {M : Arr}
    (hM : prodMat env a ops lam = .ok M) : Rel a (Q (ops.map w).sum) M := by
  unfold prodMat at hM
  rw [check_ok h, py_bind_ok] at hM
  have hw := segsOf_weight ho.radial ops [] []
  cases hg : segsOf ops [] [] with
  | nil => rw [hg] at hM; cases hM
  | cons g gs =>
    rw [hg] at hM hw
    obtain ⟨x, hx, hM⟩ := py_bind_eq_ok hM
    have := segs_rel h ho (segMat_square h hx) (seg_rel h ho hx) hM
    rw [List.map_cons, List.sum_cons] at hw
    simp only [List.map_nil, List.sum_nil, zero_add] at hw
    rw [← hw]
    exact this

/-- The matrix of a sum: an element vanishes if its labels are unrelated for every term. -/
theorem sum_rel (h : LegalRanges a) (ho : Obeyed Q w env.CG a.states) {s : XState} (hs : MemoOk env s) {ts : OperatorSum}
    {M : Arr} (hM : (RepXspace env ts a s).1 = .ok M) :
    Connects (fun f i => ∃ t ∈ ts, Q (t.2.map w).sum f.2 i.2) a.xlabels M := by
  obtain ⟨Ps, hPs⟩ : ∃ Ps, List.Forall₂ (fun t P => (RepXspace_Prod env t.2 a s).1 = .ok P) ts Ps := by
    have := (C30_exists h hs ts).1 ⟨M, hM⟩
    clear hM
    induction ts with
    | nil => exact ⟨[], .nil⟩
    | cons t ts ih =>
      obtain ⟨P, hP⟩ := this t List.mem_cons_self
      obtain ⟨Ps, hPs⟩ := ih fun u hu => this u (List.mem_cons_of_mem _ hu)
      exact ⟨P :: Ps, .cons hP hPs⟩
  obtain ⟨_, he⟩ := C30_sum h hs hM (lbsXspace_ok h) hPs
  intro p q f i hp hq hn
  rw [he p q i (List.getElem?_eq_some_iff.1 hp).1 hq]
  clear he hM
  induction hPs with
  | nil => rfl
  | @cons t P ts Ps h1 _ ih =>
    rw [List.zipWith_cons_cons, List.sum_cons, ih (fun ⟨u, hu, hq⟩ => hn ⟨u, List.mem_cons_of_mem _ hu, hq⟩), add_zero]
    have : P.e p q = 0 := by
      by_contra h0
      rw [prod_eq hs] at h1
      exact hn ⟨t, List.mem_cons_self, prod_rel h ho h1 p q f i hp hq h0⟩
    rw [this, mul_zero]

/-! ### the three rules -/

theorem fileCG_L (fs : FileSys) (dir : Option (List Char)) {a : XArgs} (h : LegalRanges a) {x y : Label} (hx : x ∈ a.states)
    (hy : y ∈ a.states) (k : SpHarm) {c : ℝ} (hc : fileCG fs dir y k.table x = .ok c) (h0 : c ≠ 0) :
    |x.2.2 - y.2.2| ≤ k.table.2.2 := by
  obtain ⟨v1, a1, L1, rfl, e1⟩ := state_nat h hx
  obtain ⟨v3, a3, L3, rfl, e3⟩ := state_nat h hy
  obtain ⟨v2, a2, L2, ek, e2⟩ : ∃ v2 a2 L2 : ℕ, k.table = ((v2 : Int), (a2 : Int), (L2 : Int)) ∧ 1 ≤ a2 := by
    refine ⟨k.table.1.toNat, k.table.2.1.toNat, k.table.2.2.toNat, ?_, ?_⟩ <;> cases k <;> decide
  by_contra hn
  rw [ek] at hc hn
  apply h0
  have := C51_selection_rules fs (CGState.start dir) v3 a3 L3 v2 a2 L2 v1 a1 L1 e3 e2 e1 (fun hr => hn (by
    have := hr
    unfold CG5Rules Triangle at this
    rw [abs_le]
    simp only
    omega))
  have hc' : (CG_SO5r3 fs ((v3 : Int), (a3 : Int), (L3 : Int)) ((v2 : Int), (a2 : Int), (L2 : Int)) ((v1 : Int), (a1 : Int), (L1 : Int))
    (CGState.start dir)).1 = .ok c := hc
  rw [this] at hc'
  injection hc' with hc'
  exact hc'.symm

theorem obeyed_L (h : LegalRanges a) (fs : FileSys) (dir : Option (List Char)) :
    Obeyed (fun n x y => |x.2.2 - y.2.2| ≤ n) symAM (fileCG fs dir) a.states where
  graded := graded_L
  item s M hM i j h0 := by
    cases s with
    | harm k =>
      obtain ⟨y, hy, hM⟩ := hM
      rw [name_label hy (C83_names k)] at hM
      obtain ⟨c, r, h1, _, h3⟩ := hM i j
      have := fileCG_L fs dir h (List.getElem_mem i.2) (List.getElem_mem j.2) k h1 (by
        rintro rfl; exact h0 (by rw [h3, zero_mul]))
      simp only [symAM]
      rw [Int.toNat_of_nonneg (by cases k <;> decide)]
      exact this
    | sqLdim =>
      rw [show M = _ from hM] at h0
      have : i = j := by
        by_contra hc
        exact h0 (Matrix.diagonal_apply_ne _ hc)
      simp [this]
    | sqLdiv =>
      rw [show M = _ from hM] at h0
      have : i = j := by
        by_contra hc
        exact h0 (Matrix.diagonal_apply_ne _ hc)
      simp [this]
    | _ => exact hM.elim
  pi x y h1 _ := h1
  pipi2 x y h1 _ := h1
  pipi4 x y h1 _ := h1
  piqpi x y h1 _ := by simp [h1]
  radial r := rfl

theorem harm_v {CG : CGFun} (h : LegalRanges a) {k : SpHarm} {M : Matrix (Fin a.states.length) (Fin a.states.length) ℝ}
    (hM : ItemMatrix CG a.states (.sym (.harm k)) M) {i j : Fin a.states.length} (h0 : M i j ≠ 0) :
    |a.states[i].1 - a.states[j].1| ≤ (symSen (.harm k) : ℕ) ∧ (a.states[i].1 - a.states[j].1 - (symSen (.harm k) : ℕ)) % 2 = 0 := by
  obtain ⟨y, hy, hM⟩ := hM
  rw [name_label hy (C83_names k)] at hM
  obtain ⟨c, r, _, h2, h3⟩ := hM i j
  have hr : r ≠ 0 := by rintro rfl; exact h0 (by rw [h3, mul_zero])
  have hi : 0 ≤ a.states[i].1 := by obtain ⟨v, _, _, e, _⟩ := state_nat h (List.getElem_mem i.2); simp [e]
  have hj : 0 ≤ a.states[j].1 := by obtain ⟨v, _, _, e, _⟩ := state_nat h (List.getElem_mem j.2); simp [e]
  have hk : 0 ≤ k.table.1 := by cases k <;> decide
  obtain ⟨m, e1, _, e2⟩ := C65_selection a.states[i].1.toNat k.table.1.toNat a.states[j].1.toNat
  rw [Int.toNat_of_nonneg hi, Int.toNat_of_nonneg hj, Int.toNat_of_nonneg hk, h2] at e1
  injection e1 with e1
  subst e1
  have hp := not_not.1 fun hc => hr (e2 hc)
  simp only [symSen]
  obtain ⟨q1, q2, q3, q4⟩ := hp
  constructor
  · rw [abs_le]; omega
  · omega

theorem obeyed_v {CG : CGFun} (h : LegalRanges a) : Obeyed (fun n x y => |x.1 - y.1| ≤ n ∧ (x.1 - y.1 - n) % 2 = 0) symSen CG a.states where
  graded := ⟨fun x => ⟨graded_v.refl x, graded_parity.refl x⟩, fun m n x y z h1 h2 =>
    ⟨graded_v.comp m n x y z h1.1 h2.1, graded_parity.comp m n x y z h1.2 h2.2⟩⟩
  item s M hM i j h0 := by
    cases s with
    | harm k => exact harm_v h hM h0
    | sqLdim =>
      rw [show M = _ from hM] at h0
      have : i = j := by
        by_contra hc
        exact h0 (Matrix.diagonal_apply_ne _ hc)
      simp [this, symSen]
    | sqLdiv =>
      rw [show M = _ from hM] at h0
      have : i = j := by
        by_contra hc
        exact h0 (Matrix.diagonal_apply_ne _ hc)
      simp [this, symSen]
    | _ => exact hM.elim
  pi x y _ h2 := by simp only [symSen]; rw [abs_le]; omega
  pipi2 x y _ h2 := by simp only [symSen]; rw [abs_le]; omega
  pipi4 x y _ h2 := by simp only [symSen]; rw [abs_le]; omega
  piqpi x y _ h2 := by simp only [symSen]; rw [abs_le]; omega
  radial r := rfl


/-- No term has more angular momentum than `Op_AM` says. -/
theorem term_le {ts : OperatorSum} {t : Coeff × OperatorProduct} (ht : t ∈ ts) : (termAM t.2 : Int) ≤ |Op_AM ts| := by
  by_cases hd : ∀ u ∈ ts, termAM u.2 = termAM t.2
  · rw [C62_definite ts (List.ne_nil_of_mem ht) _ hd]
    exact le_abs_self _
  · push Not at hd
    obtain ⟨u, hu, hn⟩ := hd
    obtain ⟨r, _, e, hr⟩ := C62_indefinite ts u t hu ht hn
    rw [e, abs_neg]
    have := hr t ht
    exact le_trans (by exact_mod_cast this) (le_abs_self _)

theorem connects_mono {R R' : XspaceLabel → XspaceLabel → Prop} (hR : ∀ f i, R f i → R' f i) {xs : List XspaceLabel} {M : Arr}
    (h : Connects R xs M) : Connects R' xs M := fun p q f i hp hq hn => h p q f i hp hq fun hc => hn (hR _ _ hc)

/-- C102: in the matrix of an operator, with the coefficients from the files, an element vanishes unless some term of the
operator has at least as much angular momentum as the two states differ by. -/
theorem C102_terms {env : XEnv} {fs : FileSys} {dir : Option (List Char)} (hcg : env.CG = fileCG fs dir) {a : XArgs}
    (h : LegalRanges a) {s : XState} (hs : MemoOk env s) {ts : OperatorSum} {M : Arr}
    (hM : (RepXspace env ts a s).1 = .ok M) {xs : List XspaceLabel}
    (hx : lbsXspace a.nu_min a.nu_max a.v_min a.v_max a.L_min (some a.L_max) = .ok xs) :
    Connects (fun f i => ∃ t ∈ ts, |f.2.2.2 - i.2.2.2| ≤ termAM t.2) xs M := by
  rw [lbsXspace_ok h] at hx
  injection hx with hx
  subst hx
  exact sum_rel h (hcg ▸ obeyed_L h fs dir) hs hM

/-- C102: so it vanishes if they differ by more than `Op_AM` says (its absolute value, which is what
`ACM_set_transition` remembers). -/
theorem C102_angular {env : XEnv} {fs : FileSys} {dir : Option (List Char)} (hcg : env.CG = fileCG fs dir) {a : XArgs}
    (h : LegalRanges a) {s : XState} (hs : MemoOk env s) {ts : OperatorSum} {M : Arr}
    (hM : (RepXspace env ts a s).1 = .ok M) {xs : List XspaceLabel}
    (hx : lbsXspace a.nu_min a.nu_max a.v_min a.v_max a.L_min (some a.L_max) = .ok xs) :
    Connects (fun f i => |f.2.2.2 - i.2.2.2| ≤ |Op_AM ts|) xs M :=
  connects_mono (fun _ _ ⟨_, ht, hl⟩ => hl.trans (term_le ht)) (C102_terms hcg h hs hM hx)

/-- C102: in the matrix of an operator, whatever the coefficients are, an element vanishes unless some term of the
operator can change the seniority by the difference of the two states, which has the same parity as the term. -/
theorem C102_seniority {env : XEnv} {a : XArgs} (h : LegalRanges a) {s : XState} (hs : MemoOk env s) {ts : OperatorSum}
    {M : Arr} (hM : (RepXspace env ts a s).1 = .ok M) {xs : List XspaceLabel}
    (hx : lbsXspace a.nu_min a.nu_max a.v_min a.v_max a.L_min (some a.L_max) = .ok xs) :
    Connects (fun f i => ∃ t ∈ ts, |f.2.1 - i.2.1| ≤ termSen t.2 ∧ (f.2.1 - i.2.1 - termSen t.2) % 2 = 0) xs M := by
  rw [lbsXspace_ok h] at hx
  injection hx with hx
  subst hx
  exact sum_rel h (obeyed_v h) hs hM

/-- C102: whatever settings have been made, the angular momentum that goes with the transition operator is the one of the
operator. -/
theorem C102_setting (fmt : String → Py Unit) (cs : List GCall) :
    (runGCalls fmt cs Glb.init).rat_TRopAM = |Op_AM (runGCalls fmt cs Glb.init).rat_TRop| := by
  refine Preserves.run (P := fun g : Glb => g.rat_TRopAM = |Op_AM g.rat_TRop|) cs (fun c _ => exec_keeps' fmt ?_ ?_ ?_ ?_ c) ?_
  · constructor <;> intros <;> first | rfl | assumption
  · intros; assumption
  · intros; assumption
  · intros; assumption
  · show (2 : Int) = |Op_AM quad_op|
    rw [C71_quad_AM.1]
    rfl

/-- C102: in the matrix of transition amplitudes the block of two angular momenta that differ by more than `Op_AM` says
consists of zeros. -/
theorem C102_amplitudes {env : FEnv} (hla : LinAlgOk env.x.la) {fs : FileSys} {dir : Option (List Char)}
    (hcg : env.x.CG = fileCG fs dir) {op : OperatorSum} {a : XArgs} (h : LegalRanges a)
    {Ls : List Int} (ho : OccupiedL a Ls) {bases : List Arr} (hb : List.Forall₂ (fun P L => P.cols = P.rows ∧
      dimXspace a.nu_min a.nu_max a.v_min a.v_max L none = .ok (P.rows : Int)) bases Ls)
    {s : FState} (hs : MemoOk env.x s.xs) {R : LBlockArray} (hR : (AmpXspeig env op bases a Ls s).1 = .ok R)
    {Lr Lc : Int} (hr : Lr ∈ Ls) (hc : Lc ∈ Ls) (hd : |Op_AM op| < |Lr - Lc|) :
    ∃ G, R.get_block Lr Lc = .ok G ∧ ∀ i j, i < G.rows → j < G.cols → G.e i j = 0 := by
  obtain ⟨l0, h0⟩ : ∃ l0, Ls.head? = some l0 := by
    cases Ls with
    | nil => cases hr
    | cons x xs => exact ⟨x, rfl⟩
  obtain ⟨l1, h1⟩ : ∃ l1, Ls.getLast? = some l1 :=
    ⟨_, List.getLast?_eq_some_getLast (List.ne_nil_of_mem hr)⟩
  have hle := narrow_legal h ho h0 h1
  obtain ⟨T, hT⟩ : ∃ T, (RepXspace env.x op (XArgs.narrow a l0 l1) s.xs).1 = .ok T := by
    have hR' := hR
    rw [(amp_eq h ho h0 h1 hs bases).1] at hR'
    obtain ⟨T, hT, _⟩ := py_bind_eq_ok hR'
    exact ⟨T, by rw [rep_eq hle hs]; exact hT⟩
  obtain ⟨R', e1, e2, _, _, hblk⟩ := C73_blocks hla h ho h0 h1 hb hs (T := T) hT
  rw [hR] at e1
  injection e1 with e1
  subst e1
  obtain ⟨P, hP⟩ := pair_of_mem hb.length_eq hr
  obtain ⟨Q, hQ⟩ := pair_of_mem hb.length_eq hc
  obtain ⟨B, hB, G, g1, g2, g3, g4⟩ := hblk P Lr Q Lc hP hQ
  obtain ⟨xs, S, x1, _, x3, _, x5, _, _⟩ := C33_tiling h ho h0 h1
  have hS : R.full_space = S := by rw [e2] at x3; injection x3
  have hcon := C102_angular hcg hle hs hT x1
  have hsq : Square xs.length T := by
    have hx2 := lbsXspace_ok hle
    have hx3 : lbsXspace a.nu_min a.nu_max a.v_min a.v_max l0 (some l1) = .ok (XArgs.narrow a l0 l1).xlabels := hx2
    rw [x1] at hx3
    injection hx3 with hx3
    rw [rep_eq hle hs] at hT
    rw [hx3, length_xlabels]
    exact allMat_square hle hT
  obtain ⟨b, e, y1, y2, y3, _, y4⟩ := x5 Lr hr
  obtain ⟨b', e', z1, z2, z3, _, z4⟩ := x5 Lc hc
  have hB0 : ∀ i j, B.e i j = 0 := by
    unfold LBlockArray.get_block at hB
    rw [hS, y1, z1] at hB
    simp only [py_bind_ok] at hB
    injection hB with hB
    subst hB
    intro i j
    unfold Arr.slice Arr.of
    simp only [sliceBound_nat, hsq.1, hsq.2.1]
    split_ifs with hij
    · have hp : b + i < xs.length := by omega
      have hq : b' + j < xs.length := by omega
      rw [Nat.min_eq_left (by omega), Nat.min_eq_left (by omega)]
      refine hcon _ _ _ _ (List.getElem?_eq_getElem hp) (List.getElem?_eq_getElem hq) ?_
      dsimp only
      rw [((y4 _ _ (List.getElem?_eq_getElem hp)).2 ⟨by omega, by omega⟩),
        ((z4 _ _ (List.getElem?_eq_getElem hq)).2 ⟨by omega, by omega⟩)]
      exact not_le.2 hd
    · rfl
  refine ⟨G, g1, fun i j hi hj => ?_⟩
  rw [g4 i j (by omega) (by omega)]
  have : ∀ i j, ((env.x.la.inv P).mul B).e i j = 0 := by
    intro i j
    unfold Arr.mul Arr.of
    simp [hB0]
  rw [Arr.mul, Arr.of]
  simp only [this, zero_mul, Finset.sum_const_zero, ite_self]

/-- C102: the same for the matrix of transition amplitudes that `ACM_Scale` and `ACM_Adapt` return, for the
transition operator that is set.  So no list that is left out of the display (`Show_Mels_Rows` goes through the
angular momenta that differ by at most `rat_TRopAM`, see `C102_setting`) has an amplitude that is not zero. -/
theorem C102_scale {env : FEnv} (hla : LinAlgOk env.x.la) {fs : FileSys} {dir : Option (List Char)}
    (hcg : env.x.CG = fileCG fs dir) {fe fr : Int} {ham : OperatorSum} {a : XArgs} {s s' : FState}
    (hs : MemoOk env.x s.xs) {r : List LEig} {R : LBlockArray}
    (h : ACM_ScaleOrAdapt env fe fr ham a s = (.ok (r, some R), s')) {Lr Lc : Int} (hr : Lr ∈ r.map LEig.L)
    (hc : Lc ∈ r.map LEig.L) (hd : |Op_AM s.glb.rat_TRop| < |Lr - Lc|) :
    ∃ G, R.get_block Lr Lc = .ok G ∧ ∀ i j, i < G.rows → j < G.cols → G.e i j = 0 := by
  obtain ⟨s1, s2, h1, h2, h3⟩ := adapt_split h
  obtain ⟨hleg, ho, hs1, _, hE⟩ := dig_eig hs h1
  have hop1 : s1.glb.rat_TRop = s.glb.rat_TRop := by
    have := dig_glb env.x ham a s
    rw [h1] at this
    rcases this with e | e
    · rw [e]
    · rw [e]; rfl
  have F : Frame fun s s' : FState => s'.xs = s.xs ∧ s'.glb.rat_TRop = s.glb.rat_TRop :=
    ⟨fun _ => ⟨rfl, rfl⟩, fun _ _ _ e1 e2 => ⟨e2.1.trans e1.1, e2.2.trans e1.2⟩, fun _ _ => ⟨rfl, rfl⟩⟩
  have k := keeps_scaleEig F r fe (fun _ => keeps_fitEig F (fun _ _ => ⟨rfl, rfl⟩) r) s1
  rw [h2] at k
  have hs2 : MemoOk env.x s2.xs := by rw [k.1]; exact hs1
  obtain ⟨s3, hA⟩ : ∃ s3, AmpXspeig env s2.glb.rat_TRop (r.map LEig.basis) a (r.map LEig.L) s2 = (.ok R, s3) := by
    unfold scaleRest at h3
    rw [st_bind_ok (x := FM.glb) (s := s2) (s' := s2) rfl] at h3
    split_ifs at h3 with hl
    · obtain ⟨R', s5, h4, h5⟩ := st_bind_eq_ok h3
      cases h5
      unfold scaleTrans at h4
      rw [st_bind_ok (x := FM.glb) (s := s2) (s' := s2) rfl] at h4
      obtain ⟨R', s3, h5, h4⟩ := st_bind_eq_ok h4
      refine ⟨s3, ?_⟩
      split_ifs at h4
      · obtain ⟨_, _, _, h4⟩ := st_bind_eq_ok h4
        obtain ⟨_, _, _, h4⟩ := st_bind_eq_ok h4
        cases h4
        exact h5
      · obtain ⟨_, _, _, h4⟩ := st_bind_eq_ok h4
        cases h4
        exact h5
    · cases h3
  rw [k.2, hop1] at hA
  have hne : Lr ≠ Lc := by
    rintro rfl
    rw [sub_self, abs_zero] at hd
    exact absurd hd (not_lt.2 (abs_nonneg _))
  cases ht : Op_Tame ham with
  | true =>
    refine C102_amplitudes hla hcg hleg ho ?_ hs2 (by rw [hA]) hr hc hd
    have hx := (C32_partial ht hleg hs h1).2
    have : ∀ x ∈ r, x.basis.cols = x.basis.rows ∧
        dimXspace a.nu_min a.nu_max a.v_min a.v_max x.L none = .ok (x.basis.rows : Int) := by
      intro x hxr
      obtain ⟨H, e1, e2⟩ := hE x hxr
      obtain ⟨w1, w2, w3⟩ := Eigenlist_shape hla rfl e1.symm e2
      exact ⟨w3.trans w2.symm, by rw [w2, ← w1]; exact (hx x hxr).1⟩
    rw [List.forall₂_map_left_iff, List.forall₂_map_right_iff]
    exact List.forall₂_same.2 this
  | false =>
    exfalso
    have h2 : 2 ≤ r.length := by
      match r, hr, hc with
      | [x], hr, hc =>
        rw [List.map_singleton, List.mem_singleton] at hr hc
        exact absurd (hr.trans hc.symm) hne
      | x :: y :: r, _, _ => simp
    obtain ⟨M, hM⟩ : ∃ M, (RepXspace env.x ham a s.xs).1 = .ok M := by
      have hr := h1
      unfold DigXspace at hr
      rw [check_ok hleg, st_lift_ok, if_neg (by rw [ht]; simp)] at hr
      obtain ⟨M, _, e5, _⟩ := st_bind_eq_ok hr
      obtain ⟨_, e1, _⟩ := liftX_rep hleg hs ham
      rw [e1] at e5
      injection e5 with e5 _
      exact ⟨M, by rw [rep_eq hleg hs]; exact e5⟩
    obtain ⟨e, he⟩ := C73_fails hla ht hleg hs hM h1 h2 (op := s.glb.rat_TRop) hs2
    rw [hA] at he
    cases he

/-- The hypotheses of C102 are met, for all file systems: the range with the states of seniority 2 and angular
momentum 2 and 4, in the initial state, with the identity as the operator. -/
example (fs : FileSys) (dir : Option (List Char)) (la : LinAlg) : ∃ M xs,
    LegalRanges arg22 ∧ MemoOk ⟨fileCG fs dir, la⟩ (XState.start lambda_acm_fun) ∧
      (RepXspace ⟨fileCG fs dir, la⟩ [(fun _ => 1, [])] arg22 (XState.start lambda_acm_fun)).1 = .ok M ∧
      lbsXspace arg22.nu_min arg22.nu_max arg22.v_min arg22.v_max arg22.L_min (some arg22.L_max) = .ok xs ∧
      xs = [(0, 2, 1, 2), (0, 2, 1, 4)] ∧ M.e 0 1 = 0 := by
  have hs := memoOk_start ⟨fileCG fs dir, la⟩ lambda_acm_fun
  obtain ⟨M, hM⟩ : ∃ M, (RepXspace ⟨fileCG fs dir, la⟩ [(fun _ => 1, [])] arg22 (XState.start lambda_acm_fun)).1 = .ok M := by
    rw [rep_eq arg22_legal hs]
    obtain ⟨n, _, hT⟩ := C29_identity arg22_legal ⟨fileCG fs dir, la⟩ lambda_acm_fun (states_ok arg22_legal) (fun _ => 0) (by
      rintro ⟨v, b, K⟩ hs
      have hv := (mem_labelsV.1 hs).1
      have : v = 2 := by
        have e1 : arg22.v_min = 2 := rfl
        have e2 : arg22.v_max = 2 := rfl
        rw [e1, e2] at hv
        omega
      subst this
      exact show lambda_acm_fun 2 = .ok 0 by decide +kernel) (by
      intro s _
      show (0 : ℝ) < 5 / 2 + ((0 : ℤ) : ℝ)
      norm_num)
    refine ⟨_, (allMat_iff arg22_legal).2 (.inr ⟨_, [], Arr.eye n, [], rfl, ?_, .nil, rfl⟩)⟩
    unfold prodMat
    rw [check_ok arg22_legal, py_bind_ok, show segsOf [] [] [] = [.twin [] []] from rfl]
    show (RepXspace_Twin _ lambda_acm_fun [] [] arg22 >>= fun x => pure x) = _
    rw [hT]
    rfl
  have hx : lbsXspace arg22.nu_min arg22.nu_max arg22.v_min arg22.v_max arg22.L_min (some arg22.L_max) =
    .ok [(0, 2, 1, 2), (0, 2, 1, 4)] := by decide +kernel
  exact ⟨M, _, arg22_legal, hs, hM, hx, rfl, C102_angular rfl arg22_legal hs hM hx 0 1 _ _ rfl rfl (by decide)⟩

/-- A call to which `C102_scale` applies: two angular momenta that differ by more than the transition operator has. -/
example (fs : FileSys) (dir : Option (List Char)) : ∃ (env : FEnv) (ham : OperatorSum) (a : XArgs) (s s' : FState)
    (r : List LEig) (R : LBlockArray), LinAlgOk env.x.la ∧ env.x.CG = fileCG fs dir ∧ MemoOk env.x s.xs ∧
      ACM_Adapt env ham a s = (.ok (r, some R), s') ∧ 2 ∈ r.map LEig.L ∧ 4 ∈ r.map LEig.L ∧
      |Op_AM s.glb.rat_TRop| < |(2 : Int) - 4| := by
  obtain ⟨la, hla⟩ := linAlg_exists
  obtain ⟨h1, r, tr, s', h2⟩ := adapt_succeeds (env := ⟨⟨fileCG fs dir, la⟩, fun _ _ => 0⟩) hla
  obtain ⟨_, R, _, _, rfl, _⟩ := C37_transition h2 (.inl (by unfold fitGlb; simp))
  obtain ⟨_, _, h3, _, _⟩ := adapt_split h2
  obtain ⟨hleg, ho, _⟩ := dig_eig h1 h3
  have hLs : r.map LEig.L = [2, 4] := by rw [occupied_eq hleg ho, Ls22]
  exact ⟨_, _, _, _, s', r, _, hla, rfl, h1, h2, by rw [hLs]; simp, by rw [hLs]; simp, by
    show |Op_AM []| < _
    decide⟩

/-- After the transition operator has been set to one of mixed angular momentum, its largest one is remembered. -/
example (fmt : String → Py Unit) : (runGCalls fmt [.transition (some [(fun _ => 1, [.Pi]), (fun _ => 1, [.PiPi4])]) 0]
    Glb.init).rat_TRopAM = 4 := by
  rw [C102_setting]
  show |Op_AM [(fun _ => 1, [.Pi]), (fun _ => 1, [.PiPi4])]| = 4
  decide

end Acm.Props
