import Verif.Props.Selection
import Verif.Props.Symmetric
import Mathlib.LinearAlgebra.Matrix.Charpoly.Basic

/-!
# Property C103: the matrices on the spaces of fixed angular momentum
-/

namespace Acm.Props

open Acm Acm.Spec

/-! ### rows and columns of a smaller range -/

theorem mem_narrow {a : XArgs} {l0 l1 : Int} (h0 : a.L_min ≤ l0) (h1 : l1 ≤ a.L_max) (x : Label) :
    x ∈ (XArgs.narrow a l0 l1).states ↔ x ∈ a.states ∧ l0 ≤ x.2.2 ∧ x.2.2 ≤ l1 := by
  obtain ⟨v, al, L⟩ := x
  unfold XArgs.states
  rw [mem_labelsV, mem_labelsV]
  simp only [XArgs.narrow]
  constructor
  · rintro ⟨q1, q2, q3, q4⟩; exact ⟨⟨q1, q2, by omega, by omega⟩, q3, q4⟩
  · rintro ⟨⟨q1, q2, _⟩, q3, q4⟩; exact ⟨q1, q2, q3, q4⟩

/-- Where the states of `b` are among those of `a`. -/
structure Inside (a b : XArgs) (e : Fin b.states.length → Fin a.states.length) : Prop where
  inj : Function.Injective e
  label : ∀ i, a.states[e i] = b.states[i]

theorem inside_exists {a : XArgs} {l0 l1 : Int} (h0 : a.L_min ≤ l0) (h1 : l1 ≤ a.L_max) :
    ∃ e, Inside a (XArgs.narrow a l0 l1) e := by
  have : ∀ i : Fin (XArgs.narrow a l0 l1).states.length, ∃ k : Fin a.states.length,
      a.states[k] = (XArgs.narrow a l0 l1).states[i] := by
    intro i
    obtain ⟨k, hk, e⟩ := List.getElem_of_mem ((mem_narrow h0 h1 _).1 (List.getElem_mem i.2)).1
    exact ⟨⟨k, hk⟩, e⟩
  choose e he using this
  refine ⟨e, fun i j hij => ?_, he⟩
  have := (he i).symm.trans ((congrArg (fun k : Fin a.states.length => a.states[k]) hij).trans (he j))
  exact Fin.ext ((states_nodup _).getElem_inj_iff.1 this)

theorem submatrix_mul {n m : ℕ} {e : Fin m → Fin n} (he : Function.Injective e) {A B : Matrix (Fin n) (Fin n) ℝ}
    (h : ∀ i k, k ∉ Set.range e → A (e i) k = 0) :
    (A * B).submatrix e e = A.submatrix e e * B.submatrix e e := by
  ext i j
  rw [Matrix.submatrix_apply, Matrix.mul_apply, Matrix.mul_apply]
  symm
  refine Finset.sum_of_injOn e he.injOn (fun _ _ => Finset.mem_coe.2 (Finset.mem_univ _)) (fun k _ hk => ?_) fun _ _ => rfl
  rw [h i k (by simpa using hk), zero_mul]

section
variable {a : XArgs} {l0 l1 : Int} {e : Fin (XArgs.narrow a l0 l1).states.length → Fin a.states.length}

theorem not_range (h0 : a.L_min ≤ l0) (h1 : l1 ≤ a.L_max) (he : Inside a (XArgs.narrow a l0 l1) e) {k : Fin a.states.length}
    (hk : k ∉ Set.range e) (i : Fin (XArgs.narrow a l0 l1).states.length) : a.states[e i].2.2 ≠ a.states[k].2.2 := by
  intro hL
  have hm := (mem_narrow h0 h1 _).1 (List.getElem_mem i.2)
  rw [he.label i] at hL
  obtain ⟨i', hi', e'⟩ := List.getElem_of_mem ((mem_narrow h0 h1 a.states[k]).2 ⟨List.getElem_mem k.2, by
    rw [← hL]; exact hm.2⟩)
  have := (he.label ⟨i', hi'⟩).trans e'
  exact hk ⟨⟨i', hi'⟩, Fin.ext ((states_nodup a).getElem_inj_iff.1 this)⟩

theorem item_sub {CG : CGFun} (he : Inside a (XArgs.narrow a l0 l1) e) {y : YSym}
    {M : Matrix (Fin a.states.length) (Fin a.states.length) ℝ} (h : ItemMatrix CG a.states y M) :
    ItemMatrix CG (XArgs.narrow a l0 l1).states y (M.submatrix e e) := by
  have hh : ∀ y : Label, HarmonicMatrix CG a.states y M → HarmonicMatrix CG (XArgs.narrow a l0 l1).states y (M.submatrix e e) := by
    intro y h i j
    obtain ⟨c, r, k1, k2, k3⟩ := h (e i) (e j)
    rw [he.label, he.label] at k1 k2
    exact ⟨c, r, k1, k2, k3⟩
  have hd : ∀ f : Label → ℝ, M = Matrix.diagonal (fun i => f a.states[i]) →
      M.submatrix e e = Matrix.diagonal fun i => f (XArgs.narrow a l0 l1).states[i] := by
    rintro f rfl
    ext i j
    rw [Matrix.submatrix_apply, Matrix.diagonal_apply, Matrix.diagonal_apply, he.label]
    simp only [he.inj.eq_iff]
  rcases y with s | t
  · cases s with
    | harm k =>
      obtain ⟨y, hy, h⟩ := h
      exact ⟨y, hy, hh y h⟩
    | sqLdim => exact hd (fun x => -Real.sqrt (2 * x.2.2 + 1)) h
    | sqLdiv => exact hd (fun x => (-1) ^ x.2.2.toNat / Real.sqrt (2 * x.2.2 + 1)) h
    | _ => exact h.elim
  · exact hh t h

theorem items_sub {CG : CGFun} (h0 : a.L_min ≤ l0) (h1 : l1 ≤ a.L_max) (he : Inside a (XArgs.narrow a l0 l1) e)
    (ho : Obeyed (fun n x y => |x.2.2 - y.2.2| ≤ n) symAM CG a.states) : ∀ {ss : List OpSym}
    {Ms : List (Matrix (Fin a.states.length) (Fin a.states.length) ℝ)}, (∀ s ∈ ss, symAM s = 0) →
    List.Forall₂ (ItemMatrix CG a.states) (ss.map .sym) Ms → ∃ Ms',
      List.Forall₂ (ItemMatrix CG (XArgs.narrow a l0 l1).states) (ss.map .sym) Ms' ∧ Ms'.prod = Ms.prod.submatrix e e
  | [], _, _, .nil => ⟨[], .nil, by
      ext i j
      simp [Matrix.one_apply, he.inj.eq_iff]⟩
  | s :: ss, M :: Ms, hz, .cons k1 k2 => by
    obtain ⟨Ms', q1, q2⟩ := items_sub h0 h1 he ho (fun s hs => hz s (List.mem_cons_of_mem _ hs)) k2
    refine ⟨M.submatrix e e :: Ms', .cons (item_sub he k1) q1, ?_⟩
    rw [List.prod_cons, List.prod_cons, q2, submatrix_mul he.inj]
    intro i k hk
    by_contra hc
    have := ho.item s M k1 _ _ hc
    rw [hz s List.mem_cons_self] at this
    have h2 := abs_nonneg (a.states[e i].2.2 - a.states[k].2.2)
    exact not_range h0 h1 he hk i (sub_eq_zero.1 (abs_eq_zero.1 (le_antisymm (by exact_mod_cast this) h2)))

/-- The elements of `M'` are those of `M` for the same labels. -/
def SubArr (a : XArgs) (l0 l1 : Int) (e : Fin (XArgs.narrow a l0 l1).states.length → Fin a.states.length) (M M' : Arr) : Prop :=
  ∀ i j : Fin (XArgs.narrow a l0 l1).states.length, ∀ x < a.rdim, ∀ y < a.rdim,
    M'.e (i * a.rdim + x) (j * a.rdim + y) = M.e (e i * a.rdim + x) (e j * a.rdim + y)

theorem fill_sub (h : LegalRanges a) (he : Inside a (XArgs.narrow a l0 l1) e) {lam : LambdaFunction} {body body' : BlockFun}
    (hb : ∀ i j init fin l, body' (i : Fin _) (j : Fin _) init fin l = body (e i) (e j) init fin l) {M : Arr}
    (hM : fillBlocks lam a.rdim a.states.length a.states body id = .ok M) :
    ∃ M', fillBlocks lam a.rdim (XArgs.narrow a l0 l1).states.length (XArgs.narrow a l0 l1).states body' id = .ok M' ∧
      SubArr a l0 l1 e M M' := by
  have hks : KeepsShape id := fun _ => ⟨rfl, rfl⟩
  have hr := rdim_pos h
  have hg : ∀ (i j : Fin (XArgs.narrow a l0 l1).states.length) b, BodyGives lam a.states body (e i) (e j) b →
      BodyGives lam (XArgs.narrow a l0 l1).states body' i j b := by
    rintro i j b ⟨init, fin, l, g1, g2, g3, g4⟩
    refine ⟨init, fin, l, ?_, ?_, g3, (hb i j init fin l).trans g4⟩
    · rw [List.getElem?_eq_getElem (e j).2] at g1
      rw [List.getElem?_eq_getElem j.2, ← g1]
      exact congrArg some (he.label j).symm
    · rw [List.getElem?_eq_getElem (e i).2] at g2
      rw [List.getElem?_eq_getElem i.2, ← g2]
      exact congrArg some (he.label i).symm
  have h1 := (fillBlocks_id hr).1 hM
  have h2 : ∃ M', fillBlocks lam a.rdim (XArgs.narrow a l0 l1).states.length (XArgs.narrow a l0 l1).states body' id = .ok M' := by
    choose! bs hbs using h1.2
    refine ⟨_, (fillBlocks_iff hr hks).2 ⟨fun i j => if hij : i < _ ∧ j < _ then bs (e ⟨i, hij.1⟩) (e ⟨j, hij.2⟩) else none,
      fun i hi j hj => ?_, rfl⟩⟩
    have := hbs _ (e ⟨i, hi⟩).2 _ (e ⟨j, hj⟩).2
    simp only [dif_pos (And.intro hi hj)]
    exact ⟨hg ⟨i, hi⟩ ⟨j, hj⟩ _ this.1, this.2.1⟩
  obtain ⟨M', hM'⟩ := h2
  refine ⟨M', hM', fun i j x hx y hy => ?_⟩
  obtain ⟨b, g1, _, g2⟩ := h1.2 _ (e i).2 _ (e j).2
  obtain ⟨b', g3, _, g4⟩ := ((fillBlocks_id hr).1 hM').2 i i.2 j j.2
  obtain ⟨init, fin, l, k1, k2, k3, k4⟩ := hg i j _ g1
  obtain ⟨init', fin', l', m1, m2, m3, m4⟩ := g3
  rw [k1] at m1
  rw [k2] at m2
  injection m1 with m1
  injection m2 with m2
  subst m1 m2
  rw [k3] at m3
  injection m3 with m3
  subst m3
  rw [k4] at m4
  injection m4 with m4
  subst m4
  rw [g2 x hx y hy, g4 x hx y hy]

theorem seg_sub (h : LegalRanges a) (hle : LegalRanges (XArgs.narrow a l0 l1)) (h0 : a.L_min ≤ l0) (h1 : l1 ≤ a.L_max)
    (he : Inside a (XArgs.narrow a l0 l1) e) {env : XEnv} (ho : Obeyed (fun n x y => |x.2.2 - y.2.2| ≤ n) symAM env.CG a.states)
    {lam : LambdaFunction} {g : Seg} (hw : segWeight symAM g = 0) {M : Arr} (hM : segMat env a lam g = .ok M) :
    ∃ M', segMat env (XArgs.narrow a l0 l1) lam g = .ok M' ∧ SubArr a l0 l1 e M M' := by
  cases g with
  | twin rs ss =>
    have hM' : RepXspace_Twin env lam rs ss a = .ok M := hM
    obtain ⟨S, hS⟩ := Twin_sph h hM'
    rw [Twin_eq h env lam rs ss hS] at hM'
    obtain ⟨n1, n2, n3, n4⟩ : 0 ≤ a.v_min ∧ 0 ≤ a.v_max ∧ 0 ≤ a.L_min ∧ 0 ≤ a.L_max := by
      have := h.2.1; have := h.2.2; omega
    obtain ⟨n5, n6⟩ : 0 ≤ l0 ∧ 0 ≤ l1 := by
      have : 0 ≤ l0 ∧ l0 ≤ l1 := hle.2.2; omega
    have hst := states_ok h
    have hst' : lbsSO5r3_rngVvarL (a.v_min.toNat : ℕ) (a.v_max.toNat : ℕ) (l0.toNat : ℕ) (some ((l1.toNat : ℕ) : Int)) =
        .ok (XArgs.narrow a l0 l1).states := by
      rw [Int.toNat_of_nonneg n1, Int.toNat_of_nonneg n2, Int.toNat_of_nonneg n5, Int.toNat_of_nonneg n6]; exact states_ok hle
    have hS1 := hS
    have hv : a.v_min ≤ a.v_max := h.2.1.2
    have hL : a.L_min ≤ a.L_max := h.2.2.2
    have hl : l0 ≤ l1 := hle.2.2.2
    rw [← Int.toNat_of_nonneg n1, ← Int.toNat_of_nonneg n2, ← Int.toNat_of_nonneg n3, ← Int.toNat_of_nonneg n4] at hS1 hst
    obtain ⟨Ms, k1, k2⟩ := C72_only (by omega) (by omega) hst _ S hS1
    obtain ⟨Ms', q1, q2⟩ := items_sub h0 h1 he ho (fun s hs => List.sum_eq_zero_iff.1 hw _ (List.mem_map_of_mem hs)) k1
    obtain ⟨S', r1, sq', r2⟩ := C72_matrices (by omega) (by omega) hst' _ Ms' q1
    rw [Int.toNat_of_nonneg n1, Int.toNat_of_nonneg n2, Int.toNat_of_nonneg n5, Int.toNat_of_nonneg n6] at r1
    obtain ⟨S2, s1, sq, _⟩ := C72_matrices (by omega) (by omega) hst _ Ms k1
    have hS2 : S2 = S := by rw [hS1] at s1; injection s1 with s1; exact s1.symm
    subst hS2
    have es : ∀ (c : ℝ) i j, (S'.smul c).e (i : Fin _) (j : Fin _) = (S2.smul c).e (e i) (e j) := by
      intro c i j
      have := congrFun (congrFun (r2.trans (q2.trans (congrArg (fun A => A.submatrix e e) k2.symm))) i) j
      have h3 : S'.e i j = S2.e (e i) (e j) := this
      simp only [Arr.smul, Arr.of, sq.1, sq.2.1, sq'.1, sq'.2.1, h3, i.2, j.2, (e i).2, (e j).2, and_self, if_true]
    obtain ⟨M', m1, m2⟩ := fill_sub (e := e)
      (body' := twinBlock env lam rs (S'.smul (Convert_red ^ (NumSO5r3_Prod (sphItems ss)).toNat)) (XArgs.narrow a l0 l1))
      h he (fun i j init fin l => by unfold twinBlock; simp only [es, XArgs.narrow]) hM'
    refine ⟨M', ?_, m2⟩
    show RepXspace_Twin env lam rs ss (XArgs.narrow a l0 l1) = .ok M'
    rw [Twin_eq hle env lam rs ss (S := S') r1]
    exact m1
  | whole op =>
    cases op with
    | PiqPi =>
      have hM' : RepXspace_PiqPi env lam a = .ok M := hM
      rw [PiqPi_eq h] at hM'
      obtain ⟨M', m1, m2⟩ := fill_sub (e := e) (body' := piqpiBlock env lam (XArgs.narrow a l0 l1)) h he
        (fun i j init fin l => rfl) hM'
      refine ⟨M', ?_, m2⟩
      show RepXspace_PiqPi env lam (XArgs.narrow a l0 l1) = .ok M'
      rw [PiqPi_eq hle]
      exact m1
    | Pi => cases hw
    | PiPi2 => cases hw
    | PiPi4 => cases hw
    | _ => cases hM

/-- Where the labels of the smaller space are among those of the larger one. -/
def xpos (h : LegalRanges a) (e : Fin (XArgs.narrow a l0 l1).states.length → Fin a.states.length)
    (p : Fin (XArgs.narrow a l0 l1).dim) : Fin a.dim :=
  ⟨e ⟨p / a.rdim, (Nat.div_lt_iff_lt_mul (rdim_pos h)).2 p.2⟩ * a.rdim + p % a.rdim, by
    have h1 := (e ⟨p / a.rdim, (Nat.div_lt_iff_lt_mul (rdim_pos h)).2 p.2⟩).2
    have h2 := Nat.mod_lt p (rdim_pos h)
    unfold XArgs.dim
    calc _ < _ * a.rdim + a.rdim := Nat.add_lt_add_left h2 _
      _ = (_ + 1) * a.rdim := by ring
      _ ≤ _ := Nat.mul_le_mul_right _ h1⟩

theorem xpos_label (h : LegalRanges a) (he : Inside a (XArgs.narrow a l0 l1) e) (p : Fin (XArgs.narrow a l0 l1).dim) :
    a.xlabels[(xpos h e p : ℕ)]? = (XArgs.narrow a l0 l1).xlabels[(p : ℕ)]? := by
  have hm := Nat.mod_lt p (rdim_pos h)
  have hd : (p : ℕ) / a.rdim < (XArgs.narrow a l0 l1).states.length := (Nat.div_lt_iff_lt_mul (rdim_pos h)).2 p.2
  have e1 := getElem?_xlabels a (e ⟨p / a.rdim, hd⟩) (p % a.rdim) hm
  have e2 := getElem?_xlabels (XArgs.narrow a l0 l1) (p / a.rdim) (p % a.rdim) hm
  rw [show (p : ℕ) / a.rdim * (XArgs.narrow a l0 l1).rdim + p % a.rdim = p from Nat.div_add_mod' _ _] at e2
  rw [show (xpos h e p : ℕ) = e ⟨p / a.rdim, hd⟩ * a.rdim + p % a.rdim from rfl, e1, e2,
    List.getElem?_eq_getElem (e ⟨p / a.rdim, hd⟩).2, List.getElem?_eq_getElem hd]
  have := he.label ⟨p / a.rdim, hd⟩
  exact congrArg (fun s : Label => some (a.nu_min + ((p % a.rdim : ℕ) : Int), s)) this

theorem xlabels_inj {a : XArgs} {p q : ℕ} {f : XspaceLabel} (hp : a.xlabels[p]? = some f) (hq : a.xlabels[q]? = some f) : p = q := by
  obtain ⟨i, x, rfl, hx, hi, e1⟩ := xlabels_split (nu := f.1) (s := f.2) hp
  obtain ⟨j, y, rfl, hy, hj, e2⟩ := xlabels_split (nu := f.1) (s := f.2) hq
  have : x = y := by omega
  obtain ⟨hi', ei⟩ := List.getElem?_eq_some_iff.1 hi
  obtain ⟨hj', ej⟩ := List.getElem?_eq_some_iff.1 hj
  have : i = j := (states_nodup a).getElem_inj_iff.1 (ei.trans ej.symm)
  subst this
  omega

theorem xpos_inj (h : LegalRanges a) (he : Inside a (XArgs.narrow a l0 l1) e) : Function.Injective (xpos h e) := by
  intro p q hpq
  have h1 := xpos_label h he p
  rw [hpq, xpos_label h he q] at h1
  have hq : (q : ℕ) < (XArgs.narrow a l0 l1).xlabels.length := by rw [length_xlabels]; exact q.2
  rw [List.getElem?_eq_getElem hq] at h1
  exact Fin.ext (xlabels_inj h1.symm (List.getElem?_eq_getElem hq))

theorem sub_mat (h : LegalRanges a) {M M' : Arr} (hs : SubArr a l0 l1 e M M') :
    mat (XArgs.narrow a l0 l1).dim M' = (mat a.dim M).submatrix (xpos h e) (xpos h e) := by
  ext p q
  have := hs ⟨p / a.rdim, (Nat.div_lt_iff_lt_mul (rdim_pos h)).2 p.2⟩ ⟨q / a.rdim, (Nat.div_lt_iff_lt_mul (rdim_pos h)).2 q.2⟩
    (p % a.rdim) (Nat.mod_lt p (rdim_pos h)) (q % a.rdim) (Nat.mod_lt q (rdim_pos h))
  simp only [Nat.div_add_mod'] at this
  exact this

/-- The angular momentum of a row. -/
def rowL (a : XArgs) (p : Fin a.dim) : Int := (a.xlabels[(p : ℕ)]'(by rw [length_xlabels]; exact p.2)).2.2.2

theorem rowL_some {a : XArgs} {p : Fin a.dim} {f : XspaceLabel} (hp : a.xlabels[(p : ℕ)]? = some f) : rowL a p = f.2.2.2 := by
  obtain ⟨hp', rfl⟩ := List.getElem?_eq_some_iff.1 hp
  rfl

theorem row_get (a : XArgs) (p : Fin a.dim) : ∃ f, a.xlabels[(p : ℕ)]? = some f ∧ rowL a p = f.2.2.2 :=
  ⟨_, List.getElem?_eq_getElem (by rw [length_xlabels]; exact p.2), rfl⟩

theorem rowL_range (h : LegalRanges a) (h0 : a.L_min ≤ l0) (h1 : l1 ≤ a.L_max) (he : Inside a (XArgs.narrow a l0 l1) e) (k : Fin a.dim) :
    k ∈ Set.range (xpos h e) ↔ l0 ≤ rowL a k ∧ rowL a k ≤ l1 := by
  constructor
  · rintro ⟨p, rfl⟩
    obtain ⟨f, hf, e1⟩ := row_get (XArgs.narrow a l0 l1) p
    rw [rowL_some ((xpos_label h he p).trans hf)]
    obtain ⟨i, x, _, _, hi, _⟩ := xlabels_split (nu := f.1) (s := f.2) hf
    exact ((mem_narrow h0 h1 _).1 (List.mem_of_getElem? hi)).2
  · intro hL
    obtain ⟨f, hf, e1⟩ := row_get a k
    rw [e1] at hL
    obtain ⟨j, y, ek, hy, hj, en⟩ := xlabels_split (nu := f.1) (s := f.2) hf
    obtain ⟨m, hm, em⟩ := List.getElem_of_mem ((mem_narrow h0 h1 f.2).2 ⟨List.mem_of_getElem? hj, hL⟩)
    have hlt : m * a.rdim + y < (XArgs.narrow a l0 l1).dim := by
      calc _ < m * a.rdim + a.rdim := Nat.add_lt_add_left hy _
        _ = (m + 1) * a.rdim := by ring
        _ ≤ _ := Nat.mul_le_mul_right _ hm
    refine ⟨⟨m * a.rdim + y, hlt⟩, Fin.ext (xlabels_inj (f := f) ?_ hf)⟩
    rw [xpos_label h he]
    refine (getElem?_xlabels (XArgs.narrow a l0 l1) m y hy).trans ?_
    rw [List.getElem?_eq_getElem hm, em, Option.map_some]
    refine congrArg some ?_
    show (a.nu_min + (y : Int), f.2) = f
    rw [← en]

theorem not_xrange (h : LegalRanges a) (h0 : a.L_min ≤ l0) (h1 : l1 ≤ a.L_max) (he : Inside a (XArgs.narrow a l0 l1) e) {M : Arr}
    (hR : Rel a (fun x y => |x.2.2 - y.2.2| ≤ (0 : ℕ)) M) (p : Fin (XArgs.narrow a l0 l1).dim) (k : Fin a.dim)
    (hk : k ∉ Set.range (xpos h e)) : mat a.dim M (xpos h e p) k = 0 := by
  by_contra hc
  obtain ⟨f, hf, e1⟩ := row_get a k
  obtain ⟨g, hg, e2⟩ := row_get a (xpos h e p)
  have := hR _ _ _ _ hg hf hc
  have hL : rowL a (xpos h e p) = rowL a k := by
    have h2 := abs_nonneg (g.2.2.2 - f.2.2.2)
    rw [e1, e2]
    exact sub_eq_zero.1 (abs_eq_zero.1 (le_antisymm (by exact_mod_cast this) h2))
  rw [rowL_range h h0 h1 he, ← hL, ← rowL_range h h0 h1 he] at hk
  exact hk ⟨p, rfl⟩

theorem segs_sub (h : LegalRanges a) (hle : LegalRanges (XArgs.narrow a l0 l1)) (h0 : a.L_min ≤ l0) (h1 : l1 ≤ a.L_max)
    (he : Inside a (XArgs.narrow a l0 l1) e) {env : XEnv} (ho : Obeyed (fun n x y => |x.2.2 - y.2.2| ≤ n) symAM env.CG a.states)
    {lam : LambdaFunction} : ∀ {gs : List Seg} {x x' M : Arr}, (∀ g ∈ gs, segWeight symAM g = 0) →
    Square a.dim x → Square (XArgs.narrow a l0 l1).dim x' → Rel a (fun x y => |x.2.2 - y.2.2| ≤ (0 : ℕ)) x →
    mat (XArgs.narrow a l0 l1).dim x' = (mat a.dim x).submatrix (xpos h e) (xpos h e) →
    segsMat env a lam x gs = .ok M → ∃ M', segsMat env (XArgs.narrow a l0 l1) lam x' gs = .ok M' ∧
      mat (XArgs.narrow a l0 l1).dim M' = (mat a.dim M).submatrix (xpos h e) (xpos h e) := by
  intro gs
  induction gs with
  | nil =>
    intro x x' M _ _ _ _ hx hM
    injection hM with hM
    exact ⟨x', rfl, hM ▸ hx⟩
  | cons g gs ih =>
    intro x x' M hg sq sq' hR hx hM
    rw [segsMat] at hM
    obtain ⟨y, hy, hM⟩ := py_bind_eq_ok hM
    have sy := segMat_square h hy
    have hw := hg g List.mem_cons_self
    obtain ⟨y', hy', hsub⟩ := seg_sub h hle h0 h1 he ho hw hy
    have sy' := segMat_square hle hy'
    have hRy := seg_rel h ho hy
    rw [hw] at hRy
    obtain ⟨M', m1, m2⟩ := ih (x' := x'.mul y') (fun g hg' => hg g (List.mem_cons_of_mem _ hg')) (square_mul sq.1 sy.2.1)
      (square_mul sq'.1 sy'.2.1) (rel_mul ho.graded sq sy hR hRy) (by
        rw [mat_mul sq'.1 sq'.2.1 sy'.2.1, mat_mul sq.1 sq.2.1 sy.2.1, hx, sub_mat h hsub,
          submatrix_mul (xpos_inj h he) (not_xrange h h0 h1 he hR)]) hM
    exact ⟨M', by rw [segsMat, hy']; exact m1, m2⟩

theorem prod_sub (h : LegalRanges a) (hle : LegalRanges (XArgs.narrow a l0 l1)) (h0 : a.L_min ≤ l0) (h1 : l1 ≤ a.L_max)
    (he : Inside a (XArgs.narrow a l0 l1) e) {env : XEnv} (ho : Obeyed (fun n x y => |x.2.2 - y.2.2| ≤ n) symAM env.CG a.states)
    {lam : LambdaFunction} {ops : List OpSym} (hw : termAM ops = 0) {M : Arr} (hM : prodMat env a ops lam = .ok M) :
    ∃ M', prodMat env (XArgs.narrow a l0 l1) ops lam = .ok M' ∧
      mat (XArgs.narrow a l0 l1).dim M' = (mat a.dim M).submatrix (xpos h e) (xpos h e) := by
  unfold prodMat at hM ⊢
  rw [check_ok h, py_bind_ok] at hM
  rw [check_ok hle, py_bind_ok]
  have hz := segsOf_weight ho.radial ops [] []
  rw [List.map_nil, List.sum_nil, zero_add, show (ops.map symAM).sum = 0 from hw, List.sum_eq_zero_iff] at hz
  cases hg : segsOf ops [] [] with
  | nil => rw [hg] at hM; cases hM
  | cons g gs =>
    rw [hg] at hM hz
    simp only at hM ⊢
    obtain ⟨x, hx, hM⟩ := py_bind_eq_ok hM
    have hw0 : segWeight symAM g = 0 := hz _ (List.mem_map_of_mem List.mem_cons_self)
    obtain ⟨x', hx', hsub⟩ := seg_sub h hle h0 h1 he ho hw0 hx
    have hR := seg_rel h ho hx
    rw [hw0] at hR
    obtain ⟨M', m1, m2⟩ := segs_sub h hle h0 h1 he ho (fun g hg => hz _ (List.mem_map_of_mem (List.mem_cons_of_mem _ hg)))
      (segMat_square h hx) (segMat_square hle hx') hR (sub_mat h hsub) hM
    exact ⟨M', by rw [hx']; exact m1, m2⟩

theorem sum_sub (h : LegalRanges a) (hle : LegalRanges (XArgs.narrow a l0 l1)) (h0 : a.L_min ≤ l0) (h1 : l1 ≤ a.L_max)
    (he : Inside a (XArgs.narrow a l0 l1) e) {env : XEnv} (ho : Obeyed (fun n x y => |x.2.2 - y.2.2| ≤ n) symAM env.CG a.states)
    {s s' : XState} (hs : MemoOk env s) (hs' : MemoOk env s') (hlam : s'.lam_fun = s.lam_fun) {ts : OperatorSum}
    (hw : ∀ t ∈ ts, termAM t.2 = 0) {M : Arr} (hM : (RepXspace env ts a s).1 = .ok M) :
    ∃ M', (RepXspace env ts (XArgs.narrow a l0 l1) s').1 = .ok M' ∧
      mat (XArgs.narrow a l0 l1).dim M' = (mat a.dim M).submatrix (xpos h e) (xpos h e) := by
  have hall := (C30_exists h hs ts).1 ⟨M, hM⟩
  obtain ⟨Ps, Ps', hPs, hPs', hsub⟩ : ∃ Ps Ps', List.Forall₂ (fun t P => (RepXspace_Prod env t.2 a s).1 = .ok P) ts Ps ∧
      List.Forall₂ (fun t P => (RepXspace_Prod env t.2 (XArgs.narrow a l0 l1) s').1 = .ok P) ts Ps' ∧
      List.Forall₂ (fun P P' => mat (XArgs.narrow a l0 l1).dim P' = (mat a.dim P).submatrix (xpos h e) (xpos h e)) Ps Ps' := by
    clear hM
    induction ts with
    | nil => exact ⟨[], [], .nil, .nil, .nil⟩
    | cons t ts ih =>
      obtain ⟨P, hP⟩ := hall t List.mem_cons_self
      obtain ⟨Ps, Ps', q1, q2, q3⟩ := ih (fun u hu => hw u (List.mem_cons_of_mem _ hu)) fun u hu => hall u (List.mem_cons_of_mem _ hu)
      have hP2 := hP
      rw [prod_eq hs] at hP2
      obtain ⟨P', p1, p2⟩ := prod_sub h hle h0 h1 he ho (hw t List.mem_cons_self) hP2
      exact ⟨P :: Ps, P' :: Ps', .cons hP q1, .cons (by rw [prod_eq hs', hlam]; exact p1) q2, .cons p2 q3⟩
  have hall' : ∀ t ∈ ts, ∃ P, (RepXspace_Prod env t.2 (XArgs.narrow a l0 l1) s').1 = .ok P := by
    intro t ht
    obtain ⟨P, hP⟩ := hall t ht
    rw [prod_eq hs] at hP
    obtain ⟨P', p1, _⟩ := prod_sub h hle h0 h1 he ho (hw t ht) hP
    exact ⟨P', by rw [prod_eq hs', hlam]; exact p1⟩
  obtain ⟨M', hM'⟩ := (C30_exists hle hs' ts).2 hall'
  refine ⟨M', hM', ?_⟩
  obtain ⟨_, s1⟩ := C30_sum h hs hM (lbsXspace_ok h) hPs
  obtain ⟨_, s2⟩ := C30_sum hle hs' hM' (lbsXspace_ok hle) hPs'
  ext p q
  obtain ⟨f, hf, _⟩ := row_get (XArgs.narrow a l0 l1) q
  have e1 := s2 p q f (by rw [length_xlabels]; exact p.2) hf
  have e2 := s1 (xpos h e p) (xpos h e q) f (by rw [length_xlabels]; exact (xpos h e p).2) ((xpos_label h he q).trans hf)
  show M'.e p q = M.e (xpos h e p) (xpos h e q)
  rw [e1, e2]
  clear s1 s2 e1 e2 hPs hPs' hM hM' hall hall'
  induction hsub generalizing ts with
  | nil => simp
  | @cons P P' Ps Ps' k1 _ ih =>
    cases ts with
    | nil => rfl
    | cons t ts =>
      rw [List.zipWith_cons_cons, List.zipWith_cons_cons, List.sum_cons, List.sum_cons,
        ih fun u hu => hw u (List.mem_cons_of_mem _ hu)]
      have := congrFun (congrFun k1 p) q
      rw [show P'.e p q = P.e (xpos h e p) (xpos h e q) from this]

end

theorem terms_zero {ts : OperatorSum} (h : Op_AM ts = 0) : ∀ t ∈ ts, termAM t.2 = 0 := by
  intro t ht
  have := term_le ht
  rw [h, abs_zero] at this
  omega

/-- C103: an operator to which `Op_AM` assigns angular momentum 0 is tame, so it is represented for each angular momentum
separately. -/
theorem C103_tame {ham : OperatorSum} (h : Op_AM ham = 0) : Op_Tame ham = true := by
  rw [C63_tame]
  intro t ht
  have h0 : (t.2.map symAM).sum = 0 := terms_zero h t ht
  rw [List.sum_eq_zero_iff] at h0
  refine ⟨fun hm => ?_, fun hm => ?_, fun hm => ?_⟩ <;> exact absurd (h0 _ (List.mem_map_of_mem hm)) (by decide)

/-- C103: if `Op_AM` assigns angular momentum 0 to an operator and it has a matrix on a range, then it has one on every smaller
range of angular momenta, and the elements of that one are those of the larger one for the same labels: nothing is cut off. -/
theorem C103_blocks {env : XEnv} {fs : FileSys} {dir : Option (List Char)} (hcg : env.CG = fileCG fs dir) {a : XArgs}
    (h : LegalRanges a) {l0 l1 : Int} (h0 : a.L_min ≤ l0) (hl : l0 ≤ l1) (h1 : l1 ≤ a.L_max) {s s' : XState}
    (hs : MemoOk env s) (hs' : MemoOk env s') (hlam : s'.lam_fun = s.lam_fun) {ts : OperatorSum} (hz : Op_AM ts = 0) {M : Arr}
    (hM : (RepXspace env ts a s).1 = .ok M) {xs ys : List XspaceLabel}
    (hx : lbsXspace a.nu_min a.nu_max a.v_min a.v_max a.L_min (some a.L_max) = .ok xs)
    (hy : lbsXspace a.nu_min a.nu_max a.v_min a.v_max l0 (some l1) = .ok ys) :
    ∃ M', (RepXspace env ts { a with L_min := l0, L_max := l1 } s').1 = .ok M' ∧ Square ys.length M' ∧
      (∀ f, f ∈ ys ↔ f ∈ xs ∧ l0 ≤ f.2.2.2 ∧ f.2.2.2 ≤ l1) ∧
      ∀ p q p' q' f i, xs[p]? = some f → xs[q]? = some i → ys[p']? = some f → ys[q']? = some i →
        M'.e p' q' = M.e p q := by
  have hle : LegalRanges (XArgs.narrow a l0 l1) := by
    refine ⟨h.1, h.2.1, ?_, hl⟩
    exact le_trans h.2.2.1 h0
  have hy' : lbsXspace a.nu_min a.nu_max a.v_min a.v_max l0 (some l1) = .ok (XArgs.narrow a l0 l1).xlabels := lbsXspace_ok hle
  rw [hy'] at hy
  rw [lbsXspace_ok h] at hx
  injection hx with hx
  injection hy with hy
  subst hx hy
  obtain ⟨e, he⟩ := inside_exists h0 h1
  obtain ⟨M', m1, m2⟩ := sum_sub h hle h0 h1 he (hcg ▸ obeyed_L h fs dir) hs hs' hlam (terms_zero hz) hM
  have hsq := allMat_square hle ((rep_eq hle hs' ts).symm.trans m1)
  refine ⟨M', m1, by rw [length_xlabels]; exact hsq, fun f => ?_, fun p q p' q' f i hp hq hp' hq' => ?_⟩
  · constructor
    · intro hf
      obtain ⟨p, hp⟩ := List.mem_iff_getElem?.1 hf
      have hp' : p < (XArgs.narrow a l0 l1).dim := by rw [← length_xlabels]; exact (List.getElem?_eq_some_iff.1 hp).1
      have hk := (xpos_label h he ⟨p, hp'⟩).trans hp
      refine ⟨List.mem_of_getElem? hk, ?_⟩
      rw [← rowL_some hk]
      exact (rowL_range h h0 h1 he _).1 ⟨_, rfl⟩
    · rintro ⟨hf, hL⟩
      obtain ⟨p, hp⟩ := List.mem_iff_getElem?.1 hf
      have hp' : p < a.dim := by rw [← length_xlabels]; exact (List.getElem?_eq_some_iff.1 hp).1
      rw [← rowL_some (p := ⟨p, hp'⟩) hp] at hL
      obtain ⟨k, hk⟩ := (rowL_range h h0 h1 he _).2 hL
      have := xpos_label h he k
      rw [hk, hp] at this
      exact List.mem_of_getElem? this.symm
  · have d1 : p' < (XArgs.narrow a l0 l1).dim := by rw [← length_xlabels]; exact (List.getElem?_eq_some_iff.1 hp').1
    have d2 : q' < (XArgs.narrow a l0 l1).dim := by rw [← length_xlabels]; exact (List.getElem?_eq_some_iff.1 hq').1
    have e1 : (xpos h e ⟨p', d1⟩ : ℕ) = p := xlabels_inj ((xpos_label h he ⟨p', d1⟩).trans hp') hp
    have e2 : (xpos h e ⟨q', d2⟩ : ℕ) = q := xlabels_inj ((xpos_label h he ⟨q', d2⟩).trans hq') hq
    have := congrFun (congrFun m2 ⟨p', d1⟩) ⟨q', d2⟩
    rw [← e1, ← e2]
    exact this

open Polynomial in
theorem eig_charpoly {la : LinAlg} (hla : LinAlgOk la) {n : ℕ} {A : Arr} (h1 : A.rows = n) (h2 : A.cols = n) {v : ℕ → ℝ} {P : Arr}
    (h : Eigenfiddle la A = .ok (v, P)) :
    ((1 / 2 : ℝ) • (mat n A + (mat n A).transpose)).charpoly = (((List.range n).map v).map fun x => X - C x).prod := by
  obtain ⟨v', P', e1, _, _, ho, hd, _⟩ := C70_eigen la hla n A h1 h2
  rw [h] at e1
  injection e1 with e1
  injection e1 with e1 e2
  subst e1 e2
  set H := (1 / 2 : ℝ) • (mat n A + (mat n A).transpose)
  have e : H = mat n P * (Matrix.diagonal (fun i : Fin n => v i) * (mat n P).transpose) := by
    have ho' := mul_eq_one_comm.1 ho
    rw [← hd]
    calc H = (mat n P * (mat n P).transpose) * H * (mat n P * (mat n P).transpose) := by rw [ho', one_mul, mul_one]
      _ = _ := by simp only [mul_assoc]
  rw [e, Matrix.charpoly_mul_comm, mul_assoc, ho, mul_one, Matrix.charpoly_diagonal]
  rw [List.map_map, Fin.prod_univ_eq_prod_range fun i => X - C (v i)]
  rfl

open Polynomial in
/-- C103: for a Hamiltonian to which `Op_AM` assigns angular momentum 0 the levels that `DigXspace` computes, for all angular
momenta together, are the eigenvalues of (the symmetric part of) its matrix on the whole range, with the same multiplicities. -/
theorem C103_spectrum {env : XEnv} (hla : LinAlgOk env.la) {fs : FileSys} {dir : Option (List Char)} (hcg : env.CG = fileCG fs dir)
    {a : XArgs} (h : LegalRanges a) {s s' : FState} (hs : MemoOk env s.xs) {ham : OperatorSum} (hz : Op_AM ham = 0)
    {r : List LEig} (hr : DigXspace env ham a s = (.ok r, s')) {M : Arr} (hM : (RepXspace env ham a s.xs).1 = .ok M) :
    ((1 / 2 : ℝ) • (mat M.rows M + (mat M.rows M).transpose)).charpoly =
      ((r.flatMap LEig.vals).map fun v => X - C v).prod := by
  have hsq := allMat_square h ((rep_eq h hs ham).symm.trans hM)
  rw [hsq.1]
  set H := (1 / 2 : ℝ) • (mat a.dim M + (mat a.dim M).transpose) with hH
  obtain ⟨ho, hx⟩ := C32_partial (C103_tame hz) h hs hr
  have hobey : Obeyed (fun n x y => |x.2.2 - y.2.2| ≤ n) symAM env.CG a.states := hcg ▸ obeyed_L h fs dir
  have hM0 : ∀ p q, rowL a p ≠ rowL a q → mat a.dim M p q = 0 := by
    intro p q hpq
    obtain ⟨f, hf, e1⟩ := row_get a p
    obtain ⟨g, hg, e2⟩ := row_get a q
    refine sum_rel h hobey hs hM _ _ f g hf hg ?_
    rintro ⟨t, ht, hq⟩
    have h3 : (t.2.map symAM).sum = 0 := terms_zero hz t ht
    rw [h3, ← e1, ← e2] at hq
    have h2 := abs_nonneg (rowL a p - rowL a q)
    exact hpq (sub_eq_zero.1 (abs_eq_zero.1 (le_antisymm (by exact_mod_cast hq) h2)))
  have hbt : H.BlockTriangular (rowL a) := by
    intro p q hpq
    rw [hH]
    simp only [Matrix.smul_apply, Matrix.add_apply, Matrix.transpose_apply]
    rw [hM0 p q (ne_of_gt hpq), hM0 q p (ne_of_lt hpq)]
    simp
  -- the block of one angular momentum
  have hblk : ∀ x ∈ r, (H.toSquareBlock (rowL a) x.L).charpoly = (x.vals.map fun v => X - C v).prod := by
    intro x hxr
    have hL := ((ho.2 x.L).1 (List.mem_map_of_mem hxr)).1
    obtain ⟨_, ML, v, k1, k2, k3⟩ := hx x hxr
    have hle : LegalRanges (XArgs.narrow a x.L x.L) := ⟨h.1, h.2.1, le_trans h.2.2.1 hL.1, le_rfl⟩
    obtain ⟨e, he⟩ := inside_exists (l0 := x.L) (l1 := x.L) hL.1 hL.2
    obtain ⟨M', m1, m2⟩ := sum_sub h hle hL.1 hL.2 he hobey hs hs rfl (terms_zero hz) hM
    have hMM : ML = M' := by
      have k1' : (RepXspace env ham (XArgs.narrow a x.L x.L) s.xs).1 = .ok ML := k1
      rw [m1] at k1'
      injection k1' with k1'
      exact k1'.symm
    subst hMM
    have hsq' := allMat_square hle ((rep_eq hle hs ham).symm.trans m1)
    rw [k3, hsq'.1, ← eig_charpoly hla hsq'.1 hsq'.2.1 k2, m2]
    let E : Fin (XArgs.narrow a x.L x.L).dim ≃ {p : Fin a.dim // rowL a p = x.L} :=
      Equiv.ofBijective (fun p => ⟨xpos h e p, by
        have := (rowL_range h hL.1 hL.2 he _).1 ⟨p, rfl⟩
        exact le_antisymm this.2 this.1⟩) ⟨fun p q hpq => xpos_inj h he (congrArg Subtype.val hpq), fun ⟨k, hk⟩ => by
          obtain ⟨p, hp⟩ := (rowL_range h hL.1 hL.2 he k).2 ⟨hk.ge, hk.le⟩
          exact ⟨p, Subtype.ext hp⟩⟩
    rw [← Matrix.charpoly_reindex E.symm]
    rfl
  have himg : Finset.image (rowL a) Finset.univ = (r.map LEig.L).toFinset := by
    ext L
    rw [Finset.mem_image, List.mem_toFinset, ho.2 L]
    constructor
    · rintro ⟨p, _, rfl⟩
      obtain ⟨f, hf, e1⟩ := row_get a p
      obtain ⟨i, y, _, _, hi, _⟩ := xlabels_split (nu := f.1) (s := f.2) hf
      have hm : f.2 ∈ a.states := List.mem_of_getElem? hi
      have hLr : a.L_min ≤ f.2.2.2 ∧ f.2.2.2 ≤ a.L_max := (mem_labelsV.1 hm).2.2
      rw [e1]
      refine ⟨hLr, _, dimXspace_at h (le_trans h.2.2.1 hLr.1), ?_⟩
      obtain ⟨e, he⟩ := inside_exists (l0 := f.2.2.2) (l1 := f.2.2.2) hLr.1 hLr.2
      obtain ⟨k, _⟩ := (rowL_range h hLr.1 hLr.2 he p).2 (by rw [e1]; exact ⟨le_rfl, le_rfl⟩)
      have : 0 < (a.at f.2.2.2).dim := k.pos
      exact_mod_cast this.ne'
    · rintro ⟨hL, d, hd, hd0⟩
      rw [dimXspace_at h (le_trans h.2.2.1 hL.1)] at hd
      injection hd with hd
      obtain ⟨e, he⟩ := inside_exists (l0 := L) (l1 := L) hL.1 hL.2
      have hpos : 0 < (XArgs.narrow a L L).dim := by
        have : (XArgs.narrow a L L).dim ≠ 0 := by
          intro hc
          apply hd0
          rw [← hd]
          exact_mod_cast hc
        omega
      refine ⟨xpos h e ⟨0, hpos⟩, Finset.mem_univ _, ?_⟩
      have := (rowL_range h hL.1 hL.2 he _).1 ⟨⟨0, hpos⟩, rfl⟩
      exact le_antisymm this.2 this.1
  have hnd : (r.map LEig.L).Nodup := ho.1.imp fun h => ne_of_lt h
  rw [hbt.charpoly, himg, List.prod_toFinset _ hnd, List.map_map]
  have : ∀ q : List LEig, (∀ x ∈ q, x ∈ r) → (q.map ((fun L => (H.toSquareBlock (rowL a) L).charpoly) ∘ LEig.L)).prod =
      ((q.flatMap LEig.vals).map fun v => X - C v).prod := by
    intro q
    induction q with
    | nil => intro _; rfl
    | cons x q ih =>
      intro hq
      rw [List.map_cons, List.prod_cons, ih fun y hy => hq y (List.mem_cons_of_mem _ hy), List.flatMap_cons, List.map_append,
        List.prod_append]
      exact congrArg (· * _) (hblk x (hq x List.mem_cons_self))
  exact this r fun x hx => hx

/-! ### a scalar operator that is cut off -/

/-- A product of spherical operators only, whose matrix connects no different states. -/
theorem diagonal_twin {env : XEnv} (hla : LinAlgOk env.la) {a : XArgs} (h : LegalRanges a) (ha : a.anorm ≠ 0)
    (hb : 0 < a.lambda_base) {ss : List OpSym} {S : Arr}
    (hS : RepSO5r3_Prod_wrk env.CG (sphItems ss) a.v_min a.v_max a.L_min a.L_max = .ok S)
    (hd : ∀ i j, i < a.states.length → j < a.states.length → i ≠ j → S.e i j = 0) :
    ∃ P, RepXspace_Twin env lambda_acm_fun [] ss a = .ok P ∧ ∀ (p q : ℕ) (nu nu' : Int) (f k : Label) (i j : ℕ),
      a.xlabels[p]? = some (nu, f) → a.xlabels[q]? = some (nu', k) → a.states[i]? = some f → a.states[j]? = some k →
      P.e p q = if nu = nu' then (1 / (4 * Real.pi)) ^ harmonics ss * S.e i j else 0 := by
  have hv : ∀ f ∈ a.states, 0 ≤ f.1 := fun f hf => le_trans h.2.1.1 (state_v hf).1
  have hrad : ∀ f ∈ a.states, RepRadialProd env.la a.anorm [] (a.lambda_base + ((f.1 % 2 : Int) : ℝ)) (f.1 % 2 - f.1 % 2) a.nu_min a.nu_max 0 =
      .ok (Arr.eye (a.nu_max - a.nu_min + 1).toNat) := by
    intro f hf
    rw [sub_self]
    refine radial_empty _ _ _ ?_ _ _ h.1.1
    have : (0 : ℝ) ≤ ((f.1 % 2 : Int) : ℝ) := by exact_mod_cast Int.emod_nonneg _ (by decide)
    linarith
  have hij : ∀ {i j : ℕ} {f k : Label}, a.states[i]? = some f → a.states[j]? = some k → S.e i j ≠ 0 → f = k := by
    intro i j f k hi hj hne
    by_contra hc
    refine hne (hd i j (List.getElem?_eq_some_iff.1 hi).1 (List.getElem?_eq_some_iff.1 hj).1 ?_)
    rintro rfl
    rw [hi] at hj
    injection hj with hj
    exact hc hj
  obtain ⟨P, hP⟩ := C28_exists h env hla ha lambda_acm_fun [] ss (states_ok h) hS (fun s => s.1 % 2)
    (fun f hf => acm_lambda (hv f hf)) (by
      intro i j f k hi hj hne
      obtain rfl := hij hi hj hne
      exact ⟨_, hrad f (List.mem_of_getElem? hi)⟩)
  refine ⟨P, hP, ?_⟩
  obtain ⟨_, S', hS', hel⟩ := C28_elements h env lambda_acm_fun _ _ (lbsXspace_ok h) (states_ok h) hP
  rw [hS] at hS'
  injection hS' with hS'
  subst hS'
  intro p q nu nu' f k i j hp hq hi hj
  obtain ⟨i', j', lf, li, hi', hj', t1, t2, t3, t4⟩ := hel p q nu nu' f k hp hq
  obtain rfl := states_inj hi hi'
  obtain rfl := states_inj hj hj'
  by_cases h0 : S.e i j = 0
  · rw [t3 h0, h0]; simp
  obtain rfl := hij hi hj h0
  have hm := List.mem_of_getElem? hi
  rw [acm_lambda (hv f hm)] at t1 t2
  injection t1 with t1
  injection t2 with t2
  subst t1 t2
  obtain ⟨R, hR, t4⟩ := t4 h0
  rw [hrad f hm] at hR
  injection hR with hR
  subst hR
  rw [t4]
  obtain ⟨_, x, _, hx, _, rfl⟩ := xlabels_split hp
  obtain ⟨_, y, _, hy, _, rfl⟩ := xlabels_split hq
  unfold XArgs.rdim at hx hy
  simp only [add_sub_cancel_left, Int.toNat_natCast, Arr.eye, Arr.of, hx, hy, and_self, if_true]
  by_cases hxy : x = y
  · subst hxy; simp
  · rw [if_neg hxy, if_neg (by omega), mul_zero]

/-- The scalar product of the quadrupole harmonic with itself. -/
def scalarYY : List OpSym := [.sqLdim, .harm .y112, .sqLdiv, .harm .y112]

/-- Seniority 0 and 1: angular momenta 0 and 2, one state each. -/
noncomputable def arg01 : XArgs := ⟨1, 5 / 2, 0, 0, 0, 1, 0, 2⟩

/-- The same space, angular momentum 0 only. -/
noncomputable def arg00 : XArgs := ⟨1, 5 / 2, 0, 0, 0, 1, 0, 0⟩

theorem prod_four {n : ℕ} (d d' : Fin n → ℝ) (Y : Matrix (Fin n) (Fin n) ℝ) (i j : Fin n) :
    [Matrix.diagonal d, Y, Matrix.diagonal d', Y].prod i j = d i * ∑ k, Y i k * (d' k * Y k j) := by
  simp only [List.prod_cons, List.prod_nil, mul_one, Matrix.diagonal_mul]
  rw [Matrix.mul_apply]
  simp only [Matrix.diagonal_mul]

/-- C103 fails for tame operators of other kinds: the scalar product of the harmonic (1,1,2) with itself, in the form
[SpDiag_sqLdim, Y, SpDiag_sqLdiv, Y] that internal_operators.py lines 365-367 describe, is tame, although it contains terms of
non-zero angular momentum.  Its matrix on the range connects no different angular momenta, and its element for the state of
angular momentum 0 is not 0; the matrix that `DigXspace` diagonalises for angular momentum 0 is 0, because the intermediate
state, of angular momentum 2, is left out. -/
theorem C103_fails {env : XEnv} (hla : LinAlgOk env.la) {fs : FileSys} {dir : Option (List Char)} (hcg : env.CG = fileCG fs dir)
    {s : XState} (hs : MemoOk env s) (hlam : s.lam_fun = lambda_acm_fun) {c : ℝ}
    (hc : fileCG fs dir (0, 1, 0) (1, 1, 2) (1, 1, 2) = .ok c) (hc0 : c ≠ 0) :
    Op_Tame [(fun _ => 1, scalarYY)] = true ∧ LegalRanges arg01 ∧ lbsXspace 0 0 0 1 0 (some 2) = .ok [(0, 0, 1, 0), (0, 1, 1, 2)] ∧
      lbsXspace 0 0 0 1 0 (some 0) = .ok [(0, 0, 1, 0)] ∧
      ∃ M M', (RepXspace env [(fun _ => 1, scalarYY)] arg01 s).1 = .ok M ∧
        (RepXspace env [(fun _ => 1, scalarYY)] arg00 s).1 = .ok M' ∧
        M.e 0 1 = 0 ∧ M.e 1 0 = 0 ∧ M.e 0 0 ≠ 0 ∧ M'.e 0 0 = 0 := by
  have ha : LegalRanges arg01 := by simp [LegalRanges, arg01]
  have hb : LegalRanges arg00 := by simp [LegalRanges, arg00]
  have hxa : lbsXspace 0 0 0 1 0 (some 2) = .ok [(0, 0, 1, 0), (0, 1, 1, 2)] := by decide +kernel
  have hxb : lbsXspace 0 0 0 1 0 (some 0) = .ok [(0, 0, 1, 0)] := by decide +kernel
  have hsa : lbsSO5r3_rngVvarL (0 : ℕ) (1 : ℕ) (0 : ℕ) (some ((2 : ℕ) : Int)) = .ok [(0, 1, 0), (1, 1, 2)] := by decide +kernel
  have hsb : lbsSO5r3_rngVvarL (0 : ℕ) (1 : ℕ) (0 : ℕ) (some ((0 : ℕ) : Int)) = .ok [(0, 1, 0)] := by decide +kernel
  have esa : arg01.states = [(0, 1, 0), (1, 1, 2)] := by
    have := (states_ok ha).symm.trans hsa
    injection this
  have esb : arg00.states = [(0, 1, 0)] := by
    have := (states_ok hb).symm.trans hsb
    injection this
  have exa : arg01.xlabels = [(0, 0, 1, 0), (0, 1, 1, 2)] := by
    have := (lbsXspace_ok ha).symm.trans hxa
    injection this
  have exb : arg00.xlabels = [(0, 0, 1, 0)] := by
    have := (lbsXspace_ok hb).symm.trans hxb
    injection this
  -- the coefficients
  have hzero : ∀ v L : ℕ, (v = 0 ∧ L = 0) ∨ (v = 1 ∧ L = 2) → fileCG fs dir ((v : Int), 1, (L : Int)) (1, 1, 2) ((v : Int), 1, (L : Int)) = .ok 0 := by
    intro v L hv
    unfold fileCG
    have := C51_selection_rules fs (CGState.start dir) v 1 L 1 1 2 v 1 L (le_refl _) (le_refl _) (le_refl _) (by
      unfold CG5Rules
      rintro ⟨_, _, h3, _⟩
      rw [Nat.even_iff] at h3
      omega)
    exact congrArg Prod.fst this
  have h00 : fileCG fs dir (0, 1, 0) (1, 1, 2) (0, 1, 0) = .ok 0 := hzero 0 0 (.inl ⟨rfl, rfl⟩)
  have h11 : fileCG fs dir (1, 1, 2) (1, 1, 2) (1, 1, 2) = .ok 0 := hzero 1 2 (.inr ⟨rfl, rfl⟩)
  have hex := C53_exchange fs dir [] 1 1 2 1 1 2 0 1 0 (by omega) (by omega) (by omega) (by omega)
  have hc1 : (CG_SO5r3 fs ((0 : ℕ), (1 : ℕ), (0 : ℕ)) ((1 : ℕ), (1 : ℕ), (2 : ℕ)) ((1 : ℕ), (1 : ℕ), (2 : ℕ)) (runCGCalls fs [] (CGState.start dir))).1 = .ok c := hc
  rw [hc1] at hex
  set c' := exchangeFactor 1 2 2 0 0 * c with hc'
  have hc2 : fileCG fs dir (1, 1, 2) (1, 1, 2) (0, 1, 0) = .ok c' := hex
  have hc'0 : c' ≠ 0 := mul_ne_zero (left_ne_zero_of_mul_eq_one (exchangeFactor_inv 1 2 2 0 0)) hc0
  obtain ⟨m10, hm10, hp10, _⟩ := C65_selection 1 1 0
  obtain ⟨m01, hm01, hp01, _⟩ := C65_selection 0 1 1
  obtain ⟨m00, hm00, _, _⟩ := C65_selection 0 1 0
  obtain ⟨m11, hm11, _, _⟩ := C65_selection 1 1 1
  have hp10 := hp10 (by omega)
  have hp01 := hp01 (by omega)
  -- the matrices of the items
  have hname : IsHarmonicName SpHarm.y112.name (1, 1, 2) := C83_names .y112
  let Y : Matrix (Fin 2) (Fin 2) ℝ := !![0, c' * m01; c * m10, 0]
  have hY : HarmonicMatrix (fileCG fs dir) [(0, 1, 0), (1, 1, 2)] (1, 1, 2) Y := by
    intro i j
    have hi : i = (0 : Fin 2) ∨ i = (1 : Fin 2) := by revert i; decide
    have hj : j = (0 : Fin 2) ∨ j = (1 : Fin 2) := by revert j; decide
    rcases hi with rfl | rfl <;> rcases hj with rfl | rfl
    · exact ⟨0, m00, h00, hm00, by simp [Y]⟩
    · exact ⟨c', m01, hc2, hm01, rfl⟩
    · exact ⟨c, m10, hc, hm10, rfl⟩
    · exact ⟨0, m11, h11, hm11, by simp [Y]⟩
  have hY1 : HarmonicMatrix (fileCG fs dir) [(0, 1, 0)] (1, 1, 2) (0 : Matrix (Fin 1) (Fin 1) ℝ) := by
    intro i j
    have hi : i = (0 : Fin 1) := by revert i; decide
    have hj : j = (0 : Fin 1) := by revert j; decide
    subst hi hj
    exact ⟨0, m00, h00, hm00, by simp⟩
  obtain ⟨S, hS, sqS, eS⟩ := C72_matrices (CG := fileCG fs dir) (by omega) (by omega) hsa (sphItems scalarYY)
    [Matrix.diagonal _, Y, Matrix.diagonal _, Y] (.cons rfl (.cons ⟨_, hname, hY⟩ (.cons rfl (.cons ⟨_, hname, hY⟩ .nil))))
  obtain ⟨S', hS', sqS', eS'⟩ := C72_matrices (CG := fileCG fs dir) (by omega) (by omega) hsb (sphItems scalarYY)
    [Matrix.diagonal _, 0, Matrix.diagonal _, 0] (.cons rfl (.cons ⟨_, hname, hY1⟩ (.cons rfl (.cons ⟨_, hname, hY1⟩ .nil))))
  have hval : ∀ i j : Fin 2, S.e i j = -Real.sqrt (2 * (([(0, 1, 0), (1, 1, 2)] : List Label)[i.1].2.2 : ℝ) + 1) *
      (Y i 0 * ((-1) ^ 0 / Real.sqrt (2 * ((0 : Int) : ℝ) + 1) * Y 0 j) + Y i 1 * ((-1) ^ 2 / Real.sqrt (2 * ((2 : Int) : ℝ) + 1) * Y 1 j)) := by
    intro i j
    have h1 := congrFun (congrFun eS i) j
    rw [prod_four] at h1
    exact (show S.e i j = _ from h1).trans (congrArg _ (Fin.sum_univ_two _))
  have e00 : S.e 0 0 = -Real.sqrt 1 * (c' * m01 * ((-1) ^ 2 / Real.sqrt 5 * (c * m10))) := by
    refine (hval 0 0).trans ?_
    norm_num [Y]
  have e01 : S.e 0 1 = 0 := by
    refine (hval 0 1).trans ?_
    simp [Y]
  have e10 : S.e 1 0 = 0 := by
    refine (hval 1 0).trans ?_
    simp [Y]
  have e00' : S'.e 0 0 = 0 := by
    have := congrFun (congrFun eS' (0 : Fin 1)) (0 : Fin 1)
    refine (show S'.e 0 0 = _ from this).trans ?_
    simp
  have hprod : ∀ a : XArgs, LegalRanges a → prodMat env a scalarYY lambda_acm_fun = RepXspace_Twin env lambda_acm_fun [] scalarYY a := by
    intro a h
    unfold prodMat
    rw [check_ok h, py_bind_ok, show segsOf scalarYY [] [] = [.twin [] scalarYY] from rfl]
    show (RepXspace_Twin _ lambda_acm_fun [] scalarYY a >>= fun x => pure x) = _
    cases RepXspace_Twin env lambda_acm_fun [] scalarYY a <;> rfl
  have hS2 : RepSO5r3_Prod_wrk env.CG (sphItems scalarYY) arg01.v_min arg01.v_max arg01.L_min arg01.L_max = .ok S := by
    rw [hcg]; exact hS
  have hS2' : RepSO5r3_Prod_wrk env.CG (sphItems scalarYY) arg00.v_min arg00.v_max arg00.L_min arg00.L_max = .ok S' := by
    rw [hcg]; exact hS'
  obtain ⟨P, hP, hPe⟩ := diagonal_twin hla ha (by simp [arg01]) (by norm_num [arg01]) hS2 (by
    rw [esa]
    intro i j hi hj hij
    have hi : i < 2 := hi
    have hj : j < 2 := hj
    interval_cases i <;> interval_cases j
    · exact absurd rfl hij
    · exact e01
    · exact e10
    · exact absurd rfl hij)
  obtain ⟨P', hP', hPe'⟩ := diagonal_twin (S := S') hla hb (by simp [arg00]) (by norm_num [arg00]) hS2' (by
    rw [esb]
    intro i j hi hj hij
    have hi : i < 1 := hi
    have hj : j < 1 := hj
    omega)
  obtain ⟨M, hM1, hM2, hM3⟩ := rep_sum (f := fun _ p q => P.e p q) ha (ts := [(fun _ => 1, scalarYY)]) (env := env)
    (lam := lambda_acm_fun) fun t ht => by
      rw [List.mem_singleton] at ht
      subst ht
      exact ⟨P, by rw [hprod _ ha]; exact hP, fun p q _ _ => rfl⟩
  obtain ⟨M', hM1', hM2', hM3'⟩ := rep_sum (f := fun _ p q => P'.e p q) hb (ts := [(fun _ => 1, scalarYY)]) (env := env)
    (lam := lambda_acm_fun) fun t ht => by
      rw [List.mem_singleton] at ht
      subst ht
      exact ⟨P', by rw [hprod _ hb]; exact hP', fun p q _ _ => rfl⟩
  have da : arg01.dim = 2 := by rw [← length_xlabels, exa]; rfl
  have db : arg00.dim = 1 := by rw [← length_xlabels, exb]; rfl
  have el : ∀ p q : ℕ, p < 2 → q < 2 → M.e p q = (1 / (4 * Real.pi)) ^ harmonics scalarYY * S.e p q := by
    intro p q hp hq
    have hx : ∀ p < 2, ∃ f, arg01.xlabels[p]? = some (0, f) ∧ arg01.states[p]? = some f := by
      intro p hp
      rw [exa, esa]
      interval_cases p
      · exact ⟨_, rfl, rfl⟩
      · exact ⟨_, rfl, rfl⟩
    obtain ⟨f, f1, f2⟩ := hx p hp
    obtain ⟨k, k1, k2⟩ := hx q hq
    have hpe := hPe p q 0 0 f k p q f1 k1 f2 k2
    rw [if_pos rfl] at hpe
    rw [hM3 p q _ (by rw [da]; exact hp) k1]
    simp [hpe]
  refine ⟨rfl, ha, hxa, hxb, M, M', by rw [rep_eq ha hs, hlam]; exact hM1, by rw [rep_eq hb hs, hlam]; exact hM1', ?_, ?_, ?_, ?_⟩
  · rw [el 0 1 (by omega) (by omega), e01, mul_zero]
  · rw [el 1 0 (by omega) (by omega), e10, mul_zero]
  · rw [el 0 0 (by omega) (by omega), e00]
    have hpi : (1 / (4 * Real.pi)) ^ harmonics scalarYY ≠ 0 := pow_ne_zero _ (by positivity)
    have h5 : Real.sqrt 5 ≠ 0 := by positivity
    refine mul_ne_zero hpi (mul_ne_zero (by simp) (mul_ne_zero (mul_ne_zero hc'0 hp01.ne') (mul_ne_zero (by positivity) (mul_ne_zero hc0 hp10.ne'))))
  · have := hPe' 0 0 0 0 (0, 1, 0) (0, 1, 0) 0 0 (by rw [exb]; rfl) (by rw [exb]; rfl) (by rw [esb]; rfl) (by rw [esb]; rfl)
    rw [hM3' 0 0 (0, 0, 1, 0) (by rw [db]; decide) (by rw [exb]; rfl)]
    simp [this, e00']

theorem ones_quadrupole : fileCG onesFS none (0, 1, 0) (1, 1, 2) (1, 1, 2) = .ok 1 := by
  have hl : (cgLabels (0 : ℕ) (2 : ℕ) (1 : ℕ)).length ≤ 100 := by decide +kernel
  obtain ⟨i, x, _, h2, h3⟩ := C52_lookup onesFS none [] 0 1 0 1 1 2 1 1 2
    (by unfold CG5Rules Triangle IsState; decide +kernel) (by omega) (by omega) (List.replicate 100 1) _ rfl rfl
    (cgLabels (0 : ℕ) (2 : ℕ) (1 : ℕ)) (cgLines_cgLabels 0 2 1) (by rw [List.length_replicate]; exact hl)
  have : x = 1 := List.eq_of_mem_replicate (List.mem_of_getElem? h2)
  subst this
  exact h3

/-- The hypotheses of `C103_fails` are met, in the initial state, with files of ones. -/
example : ∃ (env : XEnv) (fs : FileSys) (dir : Option (List Char)) (s : XState) (c : ℝ), LinAlgOk env.la ∧ env.CG = fileCG fs dir ∧
    MemoOk env s ∧ s.lam_fun = lambda_acm_fun ∧ fileCG fs dir (0, 1, 0) (1, 1, 2) (1, 1, 2) = .ok c ∧ c ≠ 0 := by
  obtain ⟨la, hla⟩ := linAlg_exists
  exact ⟨⟨fileCG onesFS none, la⟩, onesFS, none, XState.start lambda_acm_fun, 1, hla, rfl, memoOk_start _ _, rfl, ones_quadrupole,
    one_ne_zero⟩

/-- The hypotheses of `C103_blocks` and `C103_spectrum` are met, for all file systems: the range with the states of seniority 2
and angular momentum 2 and 4, of which 4 is a smaller range, with the identity as the operator. -/
example (fs : FileSys) (dir : Option (List Char)) : ∃ (env : XEnv) (s s' : FState) (r : List LEig) (M : Arr), LinAlgOk env.la ∧
    env.CG = fileCG fs dir ∧ LegalRanges arg22 ∧ MemoOk env s.xs ∧ Op_AM [(fun _ => 1, [])] = 0 ∧
    DigXspace env [(fun _ => 1, [])] arg22 s = (.ok r, s') ∧ (RepXspace env [(fun _ => 1, [])] arg22 s.xs).1 = .ok M ∧
    r.map LEig.L = [2, 4] ∧ arg22.L_min ≤ 4 ∧ 4 ≤ arg22.L_max := by
  obtain ⟨la, hla⟩ := linAlg_exists
  obtain ⟨h1, r, tr, s', h2⟩ := adapt_succeeds (env := ⟨⟨fileCG fs dir, la⟩, fun _ _ => 0⟩) hla
  obtain ⟨_, _, h3, _, _⟩ := adapt_split h2
  obtain ⟨hleg, ho, _⟩ := dig_eig h1 h3
  obtain ⟨n, _, hT⟩ := C29_identity arg22_legal ⟨fileCG fs dir, la⟩ lambda_acm_fun (states_ok arg22_legal) (fun _ => 0) (by
    rintro ⟨v, b, K⟩ hs
    have hv := (mem_labelsV.1 hs).1
    have : v = 2 := by
      have e1 : arg22.v_min = 2 := rfl
      have e2 : arg22.v_max = 2 := rfl
      rw [e1, e2] at hv
      omega
    subst this
    exact show lambda_acm_fun 2 = .ok 0 by decide +kernel) (by
    intro s _
    show (0 : ℝ) < 5 / 2 + ((0 : ℤ) : ℝ)
    norm_num)
  obtain ⟨M, hM⟩ : ∃ M, allMat ⟨fileCG fs dir, la⟩ arg22 [(fun _ => 1, [])] lambda_acm_fun = .ok M := by
    refine ⟨_, (allMat_iff arg22_legal).2 (.inr ⟨_, [], Arr.eye n, [], rfl, ?_, .nil, rfl⟩)⟩
    unfold prodMat
    rw [check_ok arg22_legal, py_bind_ok, show segsOf [] [] [] = [.twin [] []] from rfl]
    show (RepXspace_Twin _ lambda_acm_fun [] [] arg22 >>= fun x => pure x) = _
    rw [hT]
    rfl
  exact ⟨_, _, _, r, M, hla, rfl, arg22_legal, h1, rfl, h3, by rw [rep_eq arg22_legal h1]; exact hM,
    by rw [occupied_eq hleg ho, Ls22], by decide, by decide⟩

end Acm.Props
