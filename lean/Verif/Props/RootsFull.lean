import Verif.Props.Roots
import Verif.Props.SO5Items
import Verif.Props.Spherical
import Verif.Props.Operators
import Verif.Props.Lambda
import Verif.Lemmas.FullMemo

/-!
# The matrices of the whole space and the eigenvalue routine (C100)
-/

namespace Acm.Props
open Acm Acm.Spec

/-! ### the spherical part -/

theorem item_parity {CG : CGFun} {states : List Label} (hn : ∀ s ∈ states, 0 ≤ s.1) {s : OpSym}
    {M : Matrix (Fin states.length) (Fin states.length) ℝ} (h : ItemMatrix CG states (.sym s) M)
    {i j : Fin states.length} (h0 : M i j ≠ 0) :
    (states[i].1 - states[j].1 - (if isOddSym s then 1 else 0)) % 2 = 0 := by
  cases s with
  | harm k =>
    obtain ⟨y, hy, h⟩ := h
    have hk := name_label hy (C83_names k)
    obtain ⟨c, r, _, h2, h3⟩ := h i j
    have hr : r ≠ 0 := by rintro rfl; exact h0 (by rw [h3, mul_zero])
    have hi := hn states[i] (List.getElem_mem _)
    have hj := hn states[j] (List.getElem_mem _)
    have hyn : 0 ≤ y.1 := by rw [hk]; cases k <;> decide
    obtain ⟨m, e1, _, e2⟩ := C65_selection states[i].1.toNat y.1.toNat states[j].1.toNat
    rw [Int.toNat_of_nonneg hi, Int.toNat_of_nonneg hj, Int.toNat_of_nonneg hyn, h2] at e1
    injection e1 with e1
    subst e1
    have hp : (states[i].1.toNat + states[j].1.toNat + y.1.toNat) % 2 = 0 := by
      by_contra hc
      exact hr (e2 fun hh => hc hh.2.2.2)
    have hodd : (y.1 - (if isOddSym (.harm k) then 1 else 0)) % 2 = 0 := by
      rw [hk]; cases k <;> decide
    omega
  | sqLdim =>
    rw [show M = _ from h] at h0
    have : i = j := by
      by_contra hc
      exact h0 (Matrix.diagonal_apply_ne _ hc)
    subst this
    simp [isOddSym]
  | sqLdiv =>
    rw [show M = _ from h] at h0
    have : i = j := by
      by_contra hc
      exact h0 (Matrix.diagonal_apply_ne _ hc)
    subst this
    simp [isOddSym]
  | _ => exact h.elim

theorem prod_parity {CG : CGFun} {states : List Label} (hn : ∀ s ∈ states, 0 ≤ s.1) : ∀ {ss : List OpSym}
    {Ms : List (Matrix (Fin states.length) (Fin states.length) ℝ)},
    List.Forall₂ (ItemMatrix CG states) (ss.map .sym) Ms → ∀ {i j : Fin states.length}, Ms.prod i j ≠ 0 →
    (states[i].1 - states[j].1 - (ss.countP isOddSym : ℕ)) % 2 = 0
  | [], _, .nil, i, j, h0 => by
    have : i = j := by
      by_contra hc
      exact h0 (by rw [List.prod_nil, Matrix.one_apply_ne hc])
    subst this
    simp
  | s :: ss, M :: Ms, .cons h1 h2, i, j, h0 => by
    rw [List.prod_cons, Matrix.mul_apply] at h0
    obtain ⟨k, _, hk⟩ := Finset.exists_ne_zero_of_sum_ne_zero h0
    have p1 := item_parity hn h1 (left_ne_zero_of_mul hk)
    have p2 := prod_parity hn h2 (right_ne_zero_of_mul hk)
    rw [List.countP_cons]
    split_ifs at p1 ⊢ with hc <;> push_cast <;> omega

theorem labels_nonneg {v_min v_max L_min L_max : ℕ} (hv : v_min ≤ v_max) (hL : L_min ≤ L_max) {states : List Label}
    (hs : lbsSO5r3_rngVvarL v_min v_max L_min (some (L_max : Int)) = .ok states) : ∀ s ∈ states, 0 ≤ s.1 := by
  obtain ⟨l, h1, h2, _⟩ := C05_rngVvarL v_min v_max L_min L_max hv hL
  rw [hs] at h1
  injection h1 with h1
  subst h1
  intro s hm
  obtain ⟨v, _, _, rfl, _⟩ := (h2 s).1 hm
  exact Int.natCast_nonneg _

/-- C100, the spherical part: a matrix element of a product of spherical operators vanishes unless the change
of seniority has the parity of the number of harmonics of odd seniority. -/
theorem C100_seniority {CG : CGFun} {v_min v_max L_min L_max : ℕ} {states : List Label} (hv : v_min ≤ v_max)
    (hL : L_min ≤ L_max) (hs : lbsSO5r3_rngVvarL v_min v_max L_min (some (L_max : Int)) = .ok states)
    (ss : List OpSym) (A : Arr) (h : RepSO5r3_Prod_wrk CG (ss.map .sym) v_min v_max L_min L_max = .ok A)
    (i j : ℕ) (f g : Label) (hi : states[i]? = some f) (hj : states[j]? = some g) (h0 : A.e i j ≠ 0) :
    (f.1 - g.1 - (ss.countP isOddSym : ℕ)) % 2 = 0 := by
  obtain ⟨Ms, h1, h2⟩ := C72_only hv hL hs _ A h
  obtain ⟨hi', rfl⟩ := List.getElem?_eq_some_iff.1 hi
  obtain ⟨hj', rfl⟩ := List.getElem?_eq_some_iff.1 hj
  have : Ms.prod ⟨i, hi'⟩ ⟨j, hj'⟩ = A.e i j := by rw [← h2]; rfl
  exact prod_parity (labels_nonneg hv hL hs) h1 (i := ⟨i, hi'⟩) (j := ⟨j, hj'⟩) (by rw [this]; exact h0)

example : lbsSO5r3_rngVvarL 0 1 0 (some 2) = .ok [(0, 1, 0), (1, 1, 2)] ∧
    [OpSym.harm .y112, .harm .y310].countP isOddSym = 2 := by decide +kernel

/-! ### independence -/

section
variable (la : LinAlg) {env : XEnv} {lam : LambdaFunction} {a : XArgs}

theorem radialProd_free (la' : LinAlg) {anorm : ℝ} {rs : List RadSym} {l : ℝ} {lv nu_min nu_max nu_lap : Int}
    (hp : ((rs.countP RadSym.isOdd : ℕ) - lv) % 2 = 0) :
    RepRadialProd la anorm rs l lv nu_min nu_max nu_lap = RepRadialProd la' anorm rs l lv nu_min nu_max nu_lap := by
  have e := C99_independent (radMat la' anorm) (fun a b => (radMat la anorm a b).b2_sqrt)
    (fun a b => (radMat la anorm a b).b2_sqrtInv) (fun A a b => A.slice a b a b) rs l lv nu_min nu_max nu_lap hp
  have hA : (fun a b => { radMat la' anorm a b with b2_sqrt := (radMat la anorm a b).b2_sqrt,
                                                    b2_sqrtInv := (radMat la anorm a b).b2_sqrtInv }) =
      radMat la anorm := by
    funext a b
    rfl
  rw [hA] at e
  exact e

theorem lcLoop_free (la' : LinAlg) {anorm l : ℝ} {lv nu_min nu_max nu_lap : Int} (lc : List (ℝ × List RadSym)) :
    ∀ (d : Dtype) (M : Arr), (∀ t ∈ lc, ((t.2.countP RadSym.isOdd : ℕ) - lv) % 2 = 0) →
    RepRadial_LC_loop la anorm l lv nu_min nu_max nu_lap d lc M =
      RepRadial_LC_loop la' anorm l lv nu_min nu_max nu_lap d lc M := by
  induction lc with
  | nil => intro d M _; rfl
  | cons t lc ih =>
    obtain ⟨c, op⟩ := t
    intro d M h
    have e : RepRadialProd la anorm op l lv nu_min nu_max nu_lap =
        RepRadialProd la' anorm op l lv nu_min nu_max nu_lap := radialProd_free la la' (h (c, op) (by simp))
    simp only [RepRadial_LC_loop, e]
    exact bind_congr fun P => bind_congr fun dP => bind_congr fun _ => ih _ _ fun t ht => h t (by simp [ht])

theorem lc_free (la' : LinAlg) {anorm l : ℝ} {lv nu_min nu_max nu_lap : Int} {lc : List (ℝ × List RadSym)}
    (h : ∀ t ∈ lc, ((t.2.countP RadSym.isOdd : ℕ) - lv) % 2 = 0) :
    RepRadial_LC la lc anorm l lv nu_min nu_max nu_lap = RepRadial_LC la' lc anorm l lv nu_min nu_max nu_lap := by
  cases lc with
  | nil => rfl
  | cons t lc =>
    obtain ⟨c, op⟩ := t
    have e : RepRadialProd la anorm op l lv nu_min nu_max nu_lap =
        RepRadialProd la' anorm op l lv nu_min nu_max nu_lap := radialProd_free la la' (h (c, op) (by simp))
    simp only [RepRadial_LC, e]
    exact bind_congr fun P => bind_congr fun d => lcLoop_free la la' lc d _ fun t ht => h t (by simp [ht])

theorem xLC_free {lc : List (ℝ × List RadSym)} {d1 d2 nu_lap : Int}
    (h : ∀ t ∈ lc, ((t.2.countP RadSym.isOdd : ℕ) - (d2 - d1)) % 2 = 0) :
    xLC { env with la := la } a lc d1 d2 nu_lap = xLC env a lc d1 d2 nu_lap := lc_free la env.la h

theorem inner_congr {r : Int} {labels : List Label} {body body' : BlockFun} {post : Arr → Arr} {j : ℕ}
    {init : Label} {ld : Int} (h : ∀ i fin, labels[i]? = some fin → body i j init fin ld = body' i j init fin ld) :
    ∀ (is : List ℕ) (M : Arr), fillInner r labels body post j init ld is M =
      fillInner r labels body' post j init ld is M
  | [], _ => rfl
  | i :: is, M => by
    simp only [fillInner]
    cases hf : pyGet labels (i : Int) with
    | error e => rfl
    | ok fin =>
      simp only [py_bind_ok]
      rw [h i fin (pyGet_ok_some hf)]
      cases body' i j init fin ld with
      | error e => rfl
      | ok blk =>
        simp only [py_bind_ok]
        cases fillWrite r post M i j blk with
        | error e => rfl
        | ok M' => exact inner_congr h is M'

theorem outer_congr {r n : Int} {labels : List Label} {body body' : BlockFun} {post : Arr → Arr}
    (h : ∀ i j init fin ld, labels[j]? = some init → labels[i]? = some fin → lam init.1 = .ok ld →
      body i j init fin ld = body' i j init fin ld) : ∀ (js : List ℕ) (M : Arr),
    fillOuter lam r n labels body post js M = fillOuter lam r n labels body' post js M
  | [], _ => rfl
  | j :: js, M => by
    simp only [fillOuter]
    cases hf : pyGet labels (j : Int) with
    | error e => rfl
    | ok init =>
      simp only [py_bind_ok]
      cases hl : lam init.1 with
      | error e => rfl
      | ok ld =>
        simp only [py_bind_ok]
        rw [inner_congr fun i fin hi => h i j init fin ld (pyGet_ok_some hf) hi hl]
        cases fillInner r labels body' post j init ld (List.range n.toNat) M with
        | error e => rfl
        | ok M' => exact outer_congr h js M'

theorem blocks_congr {r n : Int} {labels : List Label} {body body' : BlockFun} {post : Arr → Arr}
    (h : ∀ i j init fin ld, labels[j]? = some init → labels[i]? = some fin → lam init.1 = .ok ld →
      body i j init fin ld = body' i j init fin ld) :
    fillBlocks lam r n labels body post = fillBlocks lam r n labels body' post := outer_congr h _ _

theorem pi_free (hlam : ParityBasis lam) :
    RepXspace_Pi { env with la := la } lam a = RepXspace_Pi env lam a := by
  unfold RepXspace_Pi
  refine bind_congr fun _ => bind_congr fun n => bind_congr fun labels => bind_congr fun _ => ?_
  refine blocks_congr fun i j init fin ld _ _ hl => ?_
  obtain ⟨v, al, L⟩ := init
  obtain ⟨v', al', L'⟩ := fin
  unfold piBlock
  simp only
  cases hl' : lam v' with
  | error e => simp only [py_bind_error]
  | ok ld' =>
    have p1 := hlam _ _ hl
    have p2 := hlam _ _ hl'
    simp only at p1
    simp only [py_bind_ok]
    split_ifs with h1 h2 h3
    · rfl
    · rw [xLC_free la (env := env)]
      intro t ht
      simp only [List.mem_cons, List.not_mem_nil, or_false] at ht
      rcases ht with rfl | rfl <;> simp [RadSym.isOdd] <;> omega
    · rw [xLC_free la (env := env)]
      intro t ht
      simp only [List.mem_cons, List.not_mem_nil, or_false] at ht
      rcases ht with rfl | rfl <;> simp [RadSym.isOdd] <;> omega
    · rfl

theorem pipi_free (hlam : ParityBasis lam) (K : Int) :
    RepXspace_PiPi { env with la := la } lam K a = RepXspace_PiPi env lam K a := by
  unfold RepXspace_PiPi
  refine bind_congr fun _ => bind_congr fun _ => bind_congr fun n => bind_congr fun labels => ?_
  refine blocks_congr fun i j init fin ld _ _ hl => ?_
  obtain ⟨v, al, L⟩ := init
  obtain ⟨v', al', L'⟩ := fin
  unfold pipiBlock
  simp only
  cases hl' : lam v' with
  | error e => simp only [py_bind_error]
  | ok ld' =>
    have p1 := hlam _ _ hl
    have p2 := hlam _ _ hl'
    simp only at p1
    simp only [py_bind_ok]
    split_ifs with h1 h2 h3 h4
    · rfl
    · rw [xLC_free la (env := env)]
      intro t ht
      simp only [List.mem_cons, List.not_mem_nil, or_false] at ht
      rcases ht with rfl | rfl | rfl <;> simp [RadSym.isOdd, List.countP_cons] <;> omega
    · rw [xLC_free la (env := env)]
      intro t ht
      simp only [List.mem_cons, List.not_mem_nil, or_false] at ht
      rcases ht with rfl | rfl | rfl <;> simp [RadSym.isOdd, List.countP_cons] <;> omega
    · rw [xLC_free la (env := env)]
      intro t ht
      simp only [List.mem_cons, List.not_mem_nil, or_false] at ht
      rcases ht with rfl | rfl <;> simp [RadSym.isOdd] <;> omega
    · rfl

theorem piqpi_free (hlam : ParityBasis lam) :
    RepXspace_PiqPi { env with la := la } lam a = RepXspace_PiqPi env lam a := by
  unfold RepXspace_PiqPi
  refine bind_congr fun _ => bind_congr fun n => bind_congr fun labels => ?_
  refine blocks_congr fun i j init fin ld _ _ hl => ?_
  obtain ⟨v, al, L⟩ := init
  obtain ⟨v', al', L'⟩ := fin
  unfold piqpiBlock piqpiDown piqpiUp
  simp only
  cases hl' : lam v' with
  | error e => simp only [py_bind_error]
  | ok ld' =>
    have p1 := hlam _ _ hl
    have p2 := hlam _ _ hl'
    simp only at p1
    simp only [py_bind_ok]
    split_ifs with h1 h2 h3 h4 h5
    · rfl
    · rw [xLC_free la (env := env)]
      intro t ht
      simp only [List.mem_cons, List.not_mem_nil, or_false] at ht
      rcases ht with rfl | rfl | rfl <;> simp [RadSym.isOdd, List.countP_cons] <;> omega
    · rw [xLC_free la (env := env)]
      intro t ht
      simp only [List.mem_cons, List.not_mem_nil, or_false] at ht
      rcases ht with rfl | rfl | rfl <;> simp [RadSym.isOdd, List.countP_cons] <;> omega
    · rfl
    · rw [xLC_free la (env := env), xLC_free la (env := env)]
      all_goals
        intro t ht
        simp only [List.mem_cons, List.not_mem_nil, or_false] at ht
        rcases ht with rfl | rfl <;> simp [RadSym.isOdd, List.countP_cons] <;> omega
    · rfl

theorem twin_free (hlam : ParityBasis lam) {rs : List RadSym} {ss : List OpSym}
    (hp : (rs.countP RadSym.isOdd + ss.countP isOddSym) % 2 = 0) :
    RepXspace_Twin { env with la := la } lam rs ss a = RepXspace_Twin env lam rs ss a := by
  unfold RepXspace_Twin
  by_cases hr : LegalRanges a
  swap
  · rw [check_err hr]
    simp only [py_bind_error]
  · rw [check_ok hr]
    simp only [py_bind_ok]
    refine bind_congr fun n => ?_
    cases hs : lbsSO5r3_rngVvarL a.v_min a.v_max a.L_min (some a.L_max) with
    | error e => simp only [py_bind_error]
    | ok labels =>
      simp only [py_bind_ok]
      cases hM : RepSO5r3_Prod_wrk env.CG (sphItems ss) a.v_min a.v_max a.L_min a.L_max with
      | error e => simp only [py_bind_error]
      | ok S =>
        simp only [py_bind_ok]
        refine blocks_congr fun i j init fin ld hj hi hl => ?_
        unfold twinBlock
        cases hl' : lam fin.1 with
        | error e => simp only [py_bind_error]
        | ok ld' =>
          have p1 := hlam _ _ hl
          have p2 := hlam _ _ hl'
          simp only [py_bind_ok]
          split_ifs with h0
          · rfl
          · have h0' : S.e i j ≠ 0 := by
              intro hh
              refine h0 ?_
              show (if _ then S.e i j * _ else 0) = (0 : ℝ)
              rw [hh, zero_mul, ite_self]
            have p3 : (fin.1 - init.1 - (ss.countP isOddSym : ℕ)) % 2 = 0 := by
              obtain ⟨_, ⟨v0, v1⟩, L0, L1⟩ := hr
              obtain ⟨w, ew⟩ := Int.eq_ofNat_of_zero_le v0
              obtain ⟨w', ew'⟩ := Int.eq_ofNat_of_zero_le (v0.trans v1)
              obtain ⟨l, el⟩ := Int.eq_ofNat_of_zero_le L0
              obtain ⟨l', el'⟩ := Int.eq_ofNat_of_zero_le (L0.trans L1)
              rw [ew, ew', el, el'] at hs hM
              exact C100_seniority (by omega) (by omega) hs ss S hM i j fin init hi hj h0'
            rw [radialProd_free la env.la (by omega)]

theorem seg_free (hlam : ParityBasis lam) {g : Seg} (hp : ∀ rs ss, g = .twin rs ss →
    (rs.countP RadSym.isOdd + ss.countP isOddSym) % 2 = 0) :
    segMat { env with la := la } a lam g = segMat env a lam g := by
  cases g with
  | twin rs ss => exact twin_free la hlam (hp rs ss rfl)
  | whole op =>
    cases op with
    | Pi => exact pi_free la hlam
    | PiPi2 => exact pipi_free la hlam 2
    | PiPi4 => exact pipi_free la hlam 4
    | PiqPi => exact piqpi_free la hlam
    | _ => rfl

theorem segs_free (hlam : ParityBasis lam) (gs : List Seg) : ∀ (x : Arr), (∀ rs ss, .twin rs ss ∈ gs →
    (rs.countP RadSym.isOdd + ss.countP isOddSym) % 2 = 0) →
    segsMat { env with la := la } a lam x gs = segsMat env a lam x gs := by
  induction gs with
  | nil => intro x _; rfl
  | cons g gs ih =>
    intro x h
    simp only [segsMat]
    rw [seg_free la hlam fun rs ss e => h rs ss (by simp [e])]
    exact bind_congr fun y => ih _ fun rs ss hm => h rs ss (by simp [hm])

theorem segsOf_even (ops : List OpSym) : ∀ (rs : List RadSym) (ss : List OpSym),
    (∀ pre s post, ops = pre ++ s :: post → isLocalSym s = false →
      (rs.countP RadSym.isOdd + ss.countP isOddSym + pre.countP isOddSym) % 2 = 0) →
    (rs.countP RadSym.isOdd + ss.countP isOddSym + ops.countP isOddSym) % 2 = 0 →
    ∀ rs' ss', .twin rs' ss' ∈ segsOf ops rs ss → (rs'.countP RadSym.isOdd + ss'.countP isOddSym) % 2 = 0 := by
  induction ops with
  | nil =>
    intro rs ss _ h rs' ss' hm
    simp only [segsOf, List.mem_singleton, Seg.twin.injEq] at hm
    obtain ⟨rfl, rfl⟩ := hm
    simpa using h
  | cons op ops ih =>
    intro rs ss h1 h2 rs' ss' hm
    unfold segsOf at hm
    cases hr : op.radial? with
    | some r =>
      rw [hr] at hm
      have ho : op = .rad r := by
        cases op with
        | rad q => cases q <;> simp_all [OpSym.radial?]
        | _ => cases hr
      subst ho
      refine ih (rs ++ [r]) ss ?_ ?_ rs' ss' hm
      · intro pre s post e hs
        have := h1 (.rad r :: pre) s post (by rw [e]; rfl) hs
        rw [List.countP_cons, show isOddSym (.rad r) = RadSym.isOdd r from rfl] at this
        simp only [List.countP_cons, List.countP_append, List.countP_nil]
        omega
      · rw [List.countP_cons, show isOddSym (.rad r) = RadSym.isOdd r from rfl] at h2
        simp only [List.countP_cons, List.countP_append, List.countP_nil]
        omega
    | none =>
      rw [hr] at hm
      simp only at hm
      by_cases hsph : op.isSpherical
      · rw [if_pos hsph] at hm
        refine ih rs (ss ++ [op]) ?_ ?_ rs' ss' hm
        · intro pre s post e hs
          have := h1 (op :: pre) s post (by rw [e]; rfl) hs
          simp only [List.countP_cons, List.countP_append, List.countP_nil] at this ⊢
          omega
        · simp only [List.countP_cons, List.countP_append, List.countP_nil] at h2 ⊢
          omega
      · have hl : isLocalSym op = false ∧ isOddSym op = false := by
          cases op with
          | rad q => cases q <;> simp_all [OpSym.radial?, isLocalSym, isOddSym, RadSym.isOdd]
          | harm _ => exact absurd rfl hsph
          | sqLdim => exact absurd rfl hsph
          | sqLdiv => exact absurd rfl hsph
          | _ => exact ⟨rfl, rfl⟩
        have hc := h1 [] op ops rfl hl.1
        simp only [List.countP_nil, add_zero] at hc
        rw [if_neg hsph] at hm
        have next : ∀ (q : List RadSym) (t : List OpSym), (q.countP RadSym.isOdd + t.countP isOddSym) % 2 = 0 →
            .twin rs' ss' ∈ segsOf ops q t → (rs'.countP RadSym.isOdd + ss'.countP isOddSym) % 2 = 0 := by
          intro q t hq
          refine ih q t ?_ ?_ rs' ss'
          · intro pre s post e hs
            have := h1 (op :: pre) s post (by rw [e]; rfl) hs
            simp only [List.countP_cons, hl.2] at this
            simp only [Bool.false_eq_true, if_false, add_zero] at this
            omega
          · simp only [List.countP_cons, hl.2] at h2
            simp only [Bool.false_eq_true, if_false, add_zero] at h2
            omega
        split_ifs at hm with h0
        · simp only [List.mem_cons, Seg.twin.injEq, reduceCtorEq, false_or] at hm
          rcases hm with ⟨rfl, rfl⟩ | hm
          · exact hc
          · exact next [] [] rfl hm
        · simp only [List.mem_cons, reduceCtorEq, false_or] at hm
          exact next rs ss hc hm

theorem prod_free (hlam : ParityBasis lam) {ops : List OpSym} (h : EvenRuns ops) :
    prodMat { env with la := la } a ops lam = prodMat env a ops lam := by
  have he := segsOf_even ops [] [] (by simpa using h.2) (by simpa using h.1)
  unfold prodMat
  refine bind_congr fun _ => ?_
  cases hs : segsOf ops [] [] with
  | nil => rfl
  | cons g gs =>
    rw [hs] at he
    simp only
    rw [seg_free la hlam fun rs ss e => he rs ss (by simp [e])]
    exact bind_congr fun y => segs_free la hlam gs _ fun rs ss hm => he rs ss (by simp [hm])

theorem term_free (hlam : ParityBasis lam) {xs : List XspaceLabel} {t : Coeff × OperatorProduct} (h : EvenRuns t.2) :
    termMat { env with la := la } xs a lam t = termMat env xs a lam t := by
  unfold termMat
  rw [prod_free la hlam h]

theorem sum_free (hlam : ParityBasis lam) {xs : List XspaceLabel} (ts : OperatorSum) : ∀ (M : Arr),
    (∀ t ∈ ts, EvenRuns t.2) → sumMat { env with la := la } xs a lam ts M = sumMat env xs a lam ts M := by
  induction ts with
  | nil => intro M _; rfl
  | cons t ts ih =>
    intro M h
    simp only [sumMat]
    rw [term_free la hlam (h t (by simp))]
    exact bind_congr fun y => ih _ fun t ht => h t (by simp [ht])

end

/-- C100, the whole space.  If lambda has the parity of the seniority, and in every term of an operator every
run of symbols between momentum operators contains an even number of odd ones, then the matrix of the operator
(or the exception) does not depend on the eigenvalue routine. -/
theorem C100_matrix (env : XEnv) (la : LinAlg) (lam : LambdaFunction) (hlam : ParityBasis lam) (ham : OperatorSum)
    (h : ∀ t ∈ ham, EvenRuns t.2) (a : XArgs) :
    (RepXspace { env with la := la } ham a (XState.start lam)).1 = (RepXspace env ham a (XState.start lam)).1 := by
  rw [(tracks_rep { env with la := la } a ham _ (memoOk_start _ lam)).1,
    (tracks_rep env a ham _ (memoOk_start _ lam)).1]
  refine bind_congr fun _ => ?_
  cases ham with
  | nil => rfl
  | cons t ts =>
    simp only [allMat]
    refine bind_congr fun xs => ?_
    show termMat { env with la := la } xs a lam t >>= _ = termMat env xs a lam t >>= _
    rw [term_free la hlam (h t (by simp))]
    exact bind_congr fun y => sum_free la hlam ts _ fun t ht => h t (by simp [ht])

theorem evenRuns_local {t : List OpSym} (h1 : t.countP isOddSym % 2 = 0) (h2 : ∀ s ∈ t, isLocalSym s = true) :
    EvenRuns t := by
  refine ⟨h1, fun pre s post e hs => ?_⟩
  rw [h2 s (by rw [e]; simp)] at hs
  cases hs

theorem evenRuns_single (s : OpSym) (h : isOddSym s = false) : EvenRuns [s] := by
  refine ⟨by simp [h], fun pre s' post e _ => ?_⟩
  cases pre with
  | nil => rfl
  | cons x pre =>
    have := congrArg List.length e
    simp at this

example : EvenRuns [.rad .b, .harm .y310] ∧ EvenRuns [.PiqPi] ∧ ¬ EvenRuns [.rad .b] :=
  ⟨evenRuns_local (by decide) (by decide), evenRuns_single _ rfl, fun h => by cases h.1⟩

/-- C100, the Hamiltonian of the model.  For all fourteen coefficients of `ACM_Hamiltonian` (which may depend
on the labels) the matrix does not depend on the eigenvalue routine, in every basis where lambda has the parity
of the seniority. -/
theorem C100_hamiltonian (c11 c20 c21 c22 c23 c30 c31 c32 c33 c40 c41 c42 c43 c50 : Coeff) (env : XEnv) (la : LinAlg)
    (lam : LambdaFunction) (hlam : ParityBasis lam) (a : XArgs) :
    (RepXspace { env with la := la } (ACM_Hamiltonian c11 c20 c21 c22 c23 c30 c31 c32 c33 c40 c41 c42 c43 c50) a
      (XState.start lam)).1 =
    (RepXspace env (ACM_Hamiltonian c11 c20 c21 c22 c23 c30 c31 c32 c33 c40 c41 c42 c43 c50) a (XState.start lam)).1 := by
  refine C100_matrix env la lam hlam _ ?_ a
  unfold ACM_Hamiltonian
  refine mem_addTerm (P := fun t => EvenRuns t.2) (fun _ => evenRuns_single _ rfl) ?_
  iterate 12
    refine mem_addTerm (P := fun t => EvenRuns t.2) (fun _ => evenRuns_local (by dsimp only; decide) (by dsimp only; decide)) ?_
  intro t ht
  split_ifs at ht with h
  · cases ht
  · simp only [List.mem_cons, List.not_mem_nil, or_false] at ht
    rcases ht with rfl | rfl <;> exact evenRuns_local (by dsimp only; decide) (by dsimp only; decide)

/-- C100, the quadrupole operator: it fits, so transition rates do not depend on the eigenvalue routine
through this matrix either. -/
theorem C100_quadrupole (env : XEnv) (la : LinAlg) (lam : LambdaFunction) (hlam : ParityBasis lam) (a : XArgs) :
    (RepXspace { env with la := la } quad_op a (XState.start lam)).1 =
      (RepXspace env quad_op a (XState.start lam)).1 := by
  refine C100_matrix env la lam hlam _ ?_ a
  intro t ht
  rw [List.mem_singleton.1 ht]
  exact evenRuns_local (t := [.rad .b, .harm .y112]) (by decide) (by decide)

/-- C100, the bases.  Lambda has the parity of the seniority in the oscillator basis, in the default basis, in the
jagged one and in the Davidson basis with any parameter; it has not in the basis with fixed lambda. -/
theorem C100_bases : ParityBasis lambda_sho_fun ∧ ParityBasis lambda_acm_fun ∧ ParityBasis lambda_jig_fun ∧
    (∀ C, ParityBasis (lambda_davi_fun C)) ∧ ¬ ParityBasis lambda_fix_fun := by
  refine ⟨?_, ?_, ?_, ?_, ?_⟩
  · intro v k h
    unfold lambda_sho_fun at h
    obtain ⟨_, _, h⟩ := py_bind_eq_ok h
    injection h with h
    omega
  · intro v k h
    have hv : 0 ≤ v := by
      by_contra hc
      rw [(C48_rejects v (by omega) 0).2.2.1] at h
      cases h
    obtain ⟨n, rfl⟩ := Int.eq_ofNat_of_zero_le hv
    rw [(C48_simple n).2.2.1] at h
    injection h with h
    omega
  · intro v k h
    have hv : 0 ≤ v := by
      by_contra hc
      rw [(C48_rejects v (by omega) 0).2.2.2.1] at h
      cases h
    obtain ⟨n, rfl⟩ := Int.eq_ofNat_of_zero_le hv
    rw [(C48_simple n).2.2.2] at h
    injection h with h
    split_ifs at h <;> omega
  · intro C v k h
    unfold lambda_davi_fun at h
    obtain ⟨_, _, h⟩ := py_bind_eq_ok h
    obtain ⟨r1, _, h⟩ := py_bind_eq_ok h
    obtain ⟨r2, _, h⟩ := py_bind_eq_ok h
    simp only [is_odd, beq_iff_eq, Int.fmod_eq_emod_of_nonneg _ (by decide : (0 : Int) ≤ 2)] at h
    split_ifs at h with h0
    · injection h with h
      omega
    · injection h with h
      omega
  · intro h
    have := h 1 0 rfl
    cases this

end Acm.Props
