import Verif.Model.FullSpace
import Verif.Lemmas.FullMemo
import Verif.Props.FullSum
import Verif.Props.SO5Prod
import Mathlib.Data.List.Sort

/-!
# Lemmas on DigXspace
-/

namespace Acm

open Acm.Spec

theorem st_bind_eq_ok {σ α β : Type} {x : StPy σ α} {f : α → StPy σ β} {s s'' : σ} {b : β}
    (h : (x >>= f) s = (.ok b, s'')) : ∃ a s', x s = (.ok a, s') ∧ f a s' = (.ok b, s'') := by
  rw [st_bind] at h
  rcases hx : x s with ⟨e | a, s'⟩
  · rw [hx] at h; cases h
  · rw [hx] at h; exact ⟨a, s', rfl, h⟩

theorem st_lift_eq_ok {σ α : Type} {x : Py α} {s s' : σ} {a : α} (h : StPy.lift x s = (.ok a, s')) :
    x = .ok a ∧ s' = s := by
  rw [st_lift] at h
  injection h with h1 h2
  exact ⟨h1, h2.symm⟩

/-! ## validation of L values -/

theorem validate_loop_eq : ∀ (l : List Int),
    validate_Lvals_loop l = if l.Pairwise (· < ·) then .ok () else .error .valueError
  | [] => by simp [validate_Lvals_loop]
  | [a] => by simp [validate_Lvals_loop]
  | a :: b :: l => by
    rw [validate_Lvals_loop]
    by_cases h : a ≥ b
    · rw [if_pos h, if_neg]
      · rfl
      · intro hp
        have := (List.pairwise_cons.1 hp).1 b List.mem_cons_self
        omega
    · rw [if_neg h, validate_loop_eq (b :: l)]
      by_cases hp : (b :: l).Pairwise (· < ·)
      · rw [if_pos hp, if_pos]
        refine List.pairwise_cons.2 ⟨fun c hc => ?_, hp⟩
        rcases List.mem_cons.1 hc with rfl | hc
        · omega
        · have := (List.pairwise_cons.1 hp).1 c hc; omega
      · rw [if_neg hp, if_neg]
        intro h2; exact hp (List.pairwise_cons.1 h2).2

theorem mapM_require : ∀ (l : List Int), (l.mapM require_nonnegint >>= fun _ => (pure () : Py Unit))
    = if ∀ L ∈ l, 0 ≤ L then .ok () else .error .valueError
  | [] => by simp
  | a :: l => by
    rw [List.mapM_cons]
    have ih := mapM_require l
    by_cases h : 0 ≤ a
    · rw [require_nonnegint_ok h, py_bind_ok]
      by_cases hl : ∀ L ∈ l, 0 ≤ L
      · rw [if_pos hl] at ih
        rw [if_pos (by intro L hL; rcases List.mem_cons.1 hL with rfl | hL; exacts [h, hl L hL])]
        cases hm : l.mapM require_nonnegint with
        | error e => rw [hm] at ih; cases ih
        | ok x => rfl
      · rw [if_neg hl] at ih
        rw [if_neg (fun h2 => hl fun L hL => h2 L (List.mem_cons_of_mem _ hL))]
        cases hm : l.mapM require_nonnegint with
        | error e => rw [hm] at ih; injection ih with ih; rw [ih]; rfl
        | ok x => rw [hm] at ih; cases ih
    · rw [require_nonnegint_err (by omega), if_neg (fun h2 => h (h2 a List.mem_cons_self))]; rfl

theorem validate_Lvals_eq (l : List Int) : validate_Lvals l =
    if l ≠ [] ∧ (∀ L ∈ l, 0 ≤ L) ∧ l.Pairwise (· < ·) then .ok () else .error .valueError := by
  unfold validate_Lvals
  by_cases h : l = []
  · subst h; simp
  · rw [if_neg (by simpa using h)]
    have hm := mapM_require l
    by_cases h2 : ∀ L ∈ l, 0 ≤ L
    · rw [if_pos h2] at hm
      cases hx : l.mapM require_nonnegint with
      | error e => rw [hx] at hm; cases hm
      | ok x =>
        rw [py_bind_ok, validate_loop_eq]
        by_cases h3 : l.Pairwise (· < ·)
        · rw [if_pos h3, if_pos ⟨h, h2, h3⟩]
        · rw [if_neg h3, if_neg (fun hh => h3 hh.2.2)]
    · rw [if_neg h2] at hm
      rw [if_neg (fun hh => h2 hh.2.1)]
      cases hx : l.mapM require_nonnegint with
      | error e => rw [hx] at hm; injection hm with hm; rw [hm]; rfl
      | ok x => rw [hx] at hm; cases hm

/-! ## the subspace of one angular momentum -/

theorem legal_at {a : XArgs} (h : LegalRanges a) {L : Int} (hL : 0 ≤ L) : LegalRanges (a.at L) :=
  ⟨h.1, h.2.1, hL, le_refl _⟩

theorem dimXspace_at {a : XArgs} (h : LegalRanges a) {L : Int} (hL : 0 ≤ L) :
    dimXspace a.nu_min a.nu_max a.v_min a.v_max L none = .ok ((a.at L).dim : Int) := by
  have := dimXspace_ok (legal_at h hL)
  rw [← this]; rfl

theorem rngV_at {a : XArgs} (h : LegalRanges a) {L : Int} (hL : 0 ≤ L) :
    dimSO5r3_rngV a.v_min a.v_max L = .ok ((a.at L).states.length : Int) := by
  rw [dimSO5r3_rngV_ok h.2.1.1 h.2.1.2 hL, XArgs.states, length_labelsV]
  simp only [XArgs.at, pyRange_singleton, List.map_cons, List.map_nil, List.sum_cons, List.sum_nil, add_zero]

theorem at_rdim (a : XArgs) (L : Int) : (a.at L).rdim = a.rdim := rfl

theorem at_dim (a : XArgs) (L : Int) : (a.at L).dim = (a.at L).states.length * a.rdim := rfl

/-- Is there a state with this angular momentum? -/
def XArgs.occ (a : XArgs) (L : Int) : Bool := decide (0 < (a.at L).states.length)

theorem occ_iff {a : XArgs} (h : LegalRanges a) (L : Int) : a.occ L = true ↔ 0 < (a.at L).dim := by
  unfold XArgs.occ
  rw [at_dim, decide_eq_true_iff]
  exact ⟨fun h1 => Nat.mul_pos h1 (rdim_pos h), fun h1 => Nat.pos_of_mul_pos_right h1⟩

theorem not_occ {a : XArgs} {L : Int} (h : a.occ L = false) : (a.at L).states = [] := by
  unfold XArgs.occ at h
  rw [decide_eq_false_iff_not] at h
  exact List.length_eq_zero_iff.1 (by omega)

/-- The occupied angular momenta. -/
def XArgs.Ls (a : XArgs) : List Int := (pyRange a.L_min (a.L_max + 1)).filter a.occ

theorem states_flat (a : XArgs) :
    a.states = (pyRange a.L_min (a.L_max + 1)).flatMap fun L => (a.at L).states := by
  unfold XArgs.states labelsV
  simp only [XArgs.at, pyRange_singleton, List.flatMap_cons, List.flatMap_nil, List.append_nil]

theorem flatMap_filter_nil {α β : Type} (l : List α) (p : α → Bool) (f : α → List β)
    (h : ∀ x ∈ l, p x = false → f x = []) : l.flatMap f = (l.filter p).flatMap f := by
  induction l with
  | nil => rfl
  | cons x l ih =>
    have ih := ih fun y hy => h y (List.mem_cons_of_mem _ hy)
    cases hp : p x with
    | true => rw [List.filter_cons_of_pos hp, List.flatMap_cons, List.flatMap_cons, ih]
    | false =>
      rw [List.filter_cons_of_neg (by rw [hp]; simp), List.flatMap_cons, h x List.mem_cons_self hp, ih]; rfl

theorem xlabels_at_eq (a : XArgs) (L : Int) : (a.at L).xlabels =
    (a.at L).states.flatMap fun s => (lbsRadial a.nu_min a.nu_max).map fun nu => (nu, s) := rfl

theorem xlabels_flat_all (a : XArgs) :
    a.xlabels = (pyRange a.L_min (a.L_max + 1)).flatMap fun L => (a.at L).xlabels := by
  conv_lhs => unfold XArgs.xlabels
  rw [states_flat, List.flatMap_assoc]
  rfl

theorem xlabels_flat (a : XArgs) : a.xlabels = a.Ls.flatMap fun L => (a.at L).xlabels := by
  rw [xlabels_flat_all]
  exact flatMap_filter_nil _ _ _ fun L _ hL => by rw [xlabels_at_eq, not_occ hL]; rfl

theorem length_flatMap_sum {α β : Type} (l : List α) (f : α → List β) :
    (l.flatMap f).length = (l.map fun x => (f x).length).sum := by
  induction l with
  | nil => rfl
  | cons x l ih => rw [List.flatMap_cons, List.length_append, ih, List.map_cons, List.sum_cons]

theorem dim_sum (a : XArgs) : a.dim = ((pyRange a.L_min (a.L_max + 1)).map fun L => (a.at L).dim).sum := by
  rw [← length_xlabels, xlabels_flat_all, length_flatMap_sum]
  simp only [length_xlabels]

theorem Ls_sorted (a : XArgs) : a.Ls.Pairwise (· < ·) := (pyRange_pairwise _ _).filter _

theorem mem_Ls {a : XArgs} (h : LegalRanges a) {L : Int} :
    L ∈ a.Ls ↔ (a.L_min ≤ L ∧ L ≤ a.L_max) ∧ 0 < (a.at L).dim := by
  unfold XArgs.Ls
  rw [List.mem_filter, occ_iff h, mem_pyRange]
  constructor
  · rintro ⟨⟨h1, h2⟩, h3⟩; exact ⟨⟨h1, by omega⟩, h3⟩
  · rintro ⟨⟨h1, h2⟩, h3⟩; exact ⟨⟨h1, by omega⟩, h3⟩

/-! ## representations -/

/-- The memo tables are current. -/
def FOk (env : XEnv) (s : FState) : Prop := MemoOk env s.xs

theorem resetLap_idem (g : Glb) : g.resetLap.resetLap = g.resetLap := rfl

theorem liftX_rep {env : XEnv} {a : XArgs} (h : LegalRanges a) {s : FState} (hs : FOk env s)
    (ts : OperatorSum) : ∃ s', FM.liftX (RepXspace env ts a) s = (allMat env a ts s.glb.lam_fun, s') ∧
      FOk env s' ∧ s'.glb = s.glb.resetLap ∧ s'.out = s.out := by
  obtain ⟨h1, h2, h3⟩ := tracks_rep env a ts s.xs hs
  refine ⟨s.afterX (RepXspace env ts a s.xs).2, ?_, ?_, rfl, rfl⟩
  · unfold FM.liftX
    rw [h1, check_ok h]
    rfl
  · unfold FOk
    have : (s.afterX (RepXspace env ts a s.xs).2).xs = (RepXspace env ts a s.xs).2 := by
      have h4 : (RepXspace env ts a s.xs).2.lam_fun = s.glb.lam_fun := h3
      generalize (RepXspace env ts a s.xs).2 = y at h4
      unfold FState.afterX FState.xs Glb.resetLap
      simp only []
      rw [← h4]
    rw [this]
    exact h2

theorem allMat_square {env : XEnv} {a : XArgs} (h : LegalRanges a) {lam : LambdaFunction}
    {ts : OperatorSum} {M : Arr} (hM : allMat env a ts lam = .ok M) : Square a.dim M := by
  rw [Props.allMat_iff h] at hM
  rcases hM with ⟨rfl, rfl⟩ | ⟨t, ts', P, Ps, rfl, hP, hPs, rfl⟩
  · refine ⟨rfl, rfl, fun p q h => ?_⟩; simp [Arr.zeros, Arr.of]
  · apply Props.foldl_add_square
    rw [← length_xlabels]
    exact scaleTerm_square (by rw [length_xlabels]; exact prodMat_square h hP)

theorem Eigenlist_ok (la : LinAlg) {n : ℕ} {M : Arr} (h1 : M.rows = n) (h2 : M.cols = n) :
    ∃ v P, Eigenfiddle la M = .ok (v, P) ∧ Eigenlist la M = .ok ((List.range n).map v, P) := by
  unfold Eigenlist
  cases he : Eigenfiddle la M with
  | error e => unfold Eigenfiddle at he; rw [if_neg (by rw [h1, h2]; simp)] at he; cases he
  | ok r => exact ⟨r.1, r.2, rfl, by rw [py_bind_ok, h1]; rfl⟩

theorem Eigenlist_shape {la : LinAlg} (hla : LinAlgOk la) {n : ℕ} {M P : Arr} {vs : List ℝ} (h1 : M.rows = n)
    (h2 : M.cols = n) (h : Eigenlist la M = .ok (vs, P)) : vs.length = n ∧ P.rows = n ∧ P.cols = n := by
  obtain ⟨v, Q, e1, e2⟩ := Eigenlist_ok la h1 h2
  rw [e2] at h
  injection h with h
  injection h with hv hP
  subst hv hP
  obtain ⟨v', Q', e3, e4, e5, _⟩ := Props.C70_eigen la hla n M h1 h2
  rw [e1] at e3
  injection e3 with e3
  injection e3 with _ e3
  subst e3
  exact ⟨by simp, e4, e5⟩

/-- What is returned for one angular momentum of a tame Hamiltonian. -/
def EigOf (env : XEnv) (ts : OperatorSum) (a : XArgs) (lam : LambdaFunction) (x : LEig) : Prop :=
  ∃ M, allMat env (a.at x.L) ts lam = .ok M ∧ Eigenlist env.la M = .ok (x.vals, x.basis)

theorem digTame_ok {env : XEnv} {ts : OperatorSum} {a : XArgs} (h : LegalRanges a) :
    ∀ (Ls : List Int), (∀ L ∈ Ls, 0 ≤ L) → ∀ (s s' : FState) (r : List LEig), FOk env s →
      digTame env ts a Ls s = (.ok r, s') →
      r.map LEig.L = Ls.filter a.occ ∧ (∀ x ∈ r, EigOf env ts a s.glb.lam_fun x) ∧ FOk env s' ∧
        s'.out = s.out := by
  intro Ls
  induction Ls with
  | nil =>
    intro _ s s' r hs he
    cases he
    exact ⟨rfl, (fun x hx => by cases hx), hs, rfl⟩
  | cons L Ls ih =>
    intro hLs s s' r hs he
    have hL := hLs L List.mem_cons_self
    have ih := ih fun M hM => hLs M (List.mem_cons_of_mem _ hM)
    rw [digTame, rngV_at h hL, st_lift_ok] at he
    by_cases ho : a.occ L = true
    · have ho' : 0 < (a.at L).states.length := by simpa [XArgs.occ] using ho
      rw [if_pos (by exact_mod_cast ho')] at he
      obtain ⟨M, s1, hM, he⟩ := st_bind_eq_ok he
      obtain ⟨s1', e1, hok, hg, hout⟩ := liftX_rep (legal_at h hL) hs ts
      rw [e1] at hM
      injection hM with hM1 hM2
      subst hM2
      obtain ⟨q, s2, hq', he2⟩ := st_bind_eq_ok he
      obtain ⟨hq, rfl⟩ := st_lift_eq_ok hq'
      obtain ⟨rest, s3, hrest, he3⟩ := st_bind_eq_ok he2
      cases he3
      obtain ⟨i1, i2, i3, i4⟩ := ih _ _ _ hok hrest
      refine ⟨?_, ?_, i3, i4.trans hout⟩
      · rw [List.map_cons, i1, List.filter_cons_of_pos ho]
      · intro x hx
        rcases List.mem_cons.1 hx with rfl | hx
        · exact ⟨M, hM1, hq⟩
        · have := i2 x hx
          rw [hg] at this
          exact this
    · have ho' : ¬ ((a.at L).states.length : Int) > 0 := by
        simp only [XArgs.occ, decide_eq_true_eq] at ho; omega
      rw [if_neg ho'] at he
      obtain ⟨i1, i2⟩ := ih _ _ _ hs he
      exact ⟨by rw [i1, List.filter_cons_of_neg ho], i2⟩

theorem sliceBound_le {N o : ℕ} (h : o ≤ N) : sliceBound N (o : Int) = o := by
  unfold sliceBound; rw [if_neg (by omega)]; omega

theorem sliceBound_nat (N o : ℕ) : sliceBound N (o : Int) = min o N := by
  unfold sliceBound; rw [if_neg (by omega)]; omega

theorem digUntame_ok {la : LinAlg} {a : XArgs} (h : LegalRanges a) {M : Arr} {N : ℕ} (hM : Square N M) :
    ∀ (Ls : List Int), (∀ L ∈ Ls, 0 ≤ L) → ∀ (o : ℕ), o + (Ls.map fun L => (a.at L).dim).sum = N →
      ∃ r, digUntame la a M (a.rdim : Int) Ls ((o : Int) + 1) = .ok r ∧
        r.map LEig.L = Ls.filter a.occ ∧
        (∀ pre x post, r = pre ++ x :: post →
          x.vals.length = (a.at x.L).dim + if post = [] then 0 else 1) ∧
        ∀ x ∈ r, ∃ H, H.rows = x.vals.length ∧ H.cols = x.vals.length ∧
          Eigenlist la H = .ok (x.vals, x.basis) := by
  intro Ls
  induction Ls with
  | nil =>
    intro _ o _
    exact ⟨[], rfl, rfl, (fun pre x post hh => by simp at hh), (fun x hx => by cases hx)⟩
  | cons L Ls ih =>
    intro hLs o hN
    have hL := hLs L List.mem_cons_self
    have ih := ih fun M hM => hLs M (List.mem_cons_of_mem _ hM)
    rw [List.map_cons, List.sum_cons] at hN
    rw [digUntame, rngV_at h hL, py_bind_ok]
    simp only []
    by_cases ho : a.occ L = true
    · have ho' : 0 < (a.at L).states.length := by simpa [XArgs.occ] using ho
      rw [if_pos (by exact_mod_cast ho')]
      have e1 : ((o : Int) + 1 + (a.rdim : Int) * ((a.at L).states.length : Int))
          = ((o + (a.at L).dim : ℕ) : Int) + 1 := by rw [at_dim]; push_cast; ring
      rw [e1]
      obtain ⟨r, hr, hr1, hr2, hr3⟩ := ih (o + (a.at L).dim) (by omega)
      have e2 : ((o : Int) + 1 - 1) = (o : Int) := by ring
      have e3 : (((o + (a.at L).dim : ℕ) : Int) + 1) = ((o + (a.at L).dim + 1 : ℕ) : Int) := by push_cast; ring
      set n := min (o + (a.at L).dim + 1) N - o with hn
      have r1 : (M.slice ((o : Int) + 1 - 1) (((o + (a.at L).dim : ℕ) : Int) + 1) ((o : Int) + 1 - 1)
          (((o + (a.at L).dim : ℕ) : Int) + 1)).rows = n := by
        unfold Arr.slice Arr.of
        simp only []
        rw [e2, e3, hM.1, sliceBound_nat, sliceBound_nat]; omega
      have r2 : (M.slice ((o : Int) + 1 - 1) (((o + (a.at L).dim : ℕ) : Int) + 1) ((o : Int) + 1 - 1)
          (((o + (a.at L).dim : ℕ) : Int) + 1)).cols = n := by
        unfold Arr.slice Arr.of
        simp only []
        rw [e2, e3, hM.2.1, sliceBound_nat, sliceBound_nat]; omega
      obtain ⟨v, P, _, hv⟩ := Eigenlist_ok la r1 r2
      refine ⟨⟨L, (List.range n).map v, P⟩ :: r, ?_, ?_, ?_, ?_⟩
      · rw [hv, py_bind_ok, hr, py_bind_ok]; rfl
      · rw [List.map_cons, hr1, List.filter_cons_of_pos ho]
      · intro pre x post hh
        cases pre with
        | nil =>
          rw [List.nil_append] at hh
          injection hh with h1 h2
          subst h1 h2
          simp only [List.length_map, List.length_range]
          by_cases hr0 : r = []
          · rw [if_pos hr0]
            have hz : (Ls.map fun L => (a.at L).dim).sum = 0 := by
              rw [List.sum_eq_zero_iff]
              intro d hd
              obtain ⟨K, hK, rfl⟩ := List.mem_map.1 hd
              by_contra hne
              have : K ∈ Ls.filter a.occ := List.mem_filter.2 ⟨hK, (occ_iff h K).2 (by omega)⟩
              rw [← hr1, hr0] at this
              cases this
            omega
          · rw [if_neg hr0]
            have hz : 0 < (Ls.map fun L => (a.at L).dim).sum := by
              obtain ⟨y, r', rfl⟩ := List.exists_cons_of_ne_nil hr0
              have hy : y.L ∈ Ls.filter a.occ := by rw [← hr1]; exact List.mem_cons_self
              obtain ⟨hy1, hy2⟩ := List.mem_filter.1 hy
              have hy3 := (occ_iff h _).1 hy2
              have := List.single_le_sum (l := Ls.map fun L => (a.at L).dim) (fun _ _ => Nat.zero_le _) _
                (List.mem_map_of_mem hy1)
              omega
            omega
        | cons p pre =>
          rw [List.cons_append] at hh
          injection hh with h1 h2
          exact hr2 pre x post h2
      · intro x hx
        rcases List.mem_cons.1 hx with rfl | hx
        · refine ⟨_, ?_, ?_, hv⟩ <;> simp only [List.length_map, List.length_range]
          · exact r1
          · exact r2
        · exact hr3 x hx
    · have ho0 : ¬ 0 < (a.at L).states.length := by simpa [XArgs.occ] using ho
      have hd : (a.at L).dim = 0 := by rw [at_dim]; have : (a.at L).states.length = 0 := by omega
                                       rw [this]; simp
      have ho' : ¬ ((a.at L).states.length : Int) > 0 := by omega
      rw [if_neg ho']
      obtain ⟨r, hr, hr1, hr2⟩ := ih o (by omega)
      exact ⟨r, hr, by rw [hr1, List.filter_cons_of_neg ho], hr2⟩

end Acm
