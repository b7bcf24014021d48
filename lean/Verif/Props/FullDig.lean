import Verif.Lemmas.FullDig
import Verif.Spec.FullSpace

/-!
# Properties C08 (L values), C32: what is diagonalised
-/

namespace Acm.Props

open Acm Acm.Spec

/-- C08: `validate_Lvals` raises exactly if the list is empty, or contains a negative number, or is not
strictly increasing. -/
theorem C08_validate_Lvals (l : List Int) : validate_Lvals l =
    if l ≠ [] ∧ (∀ L ∈ l, 0 ≤ L) ∧ l.Pairwise (· < ·) then .ok () else .error .valueError :=
  validate_Lvals_eq l

example : validate_Lvals [0, 2, 3] = .ok () ∧ validate_Lvals [0, 2, 2] = .error .valueError := by
  constructor <;> decide +kernel

theorem occupied_Ls {a : XArgs} (h : LegalRanges a) : OccupiedL a a.Ls := by
  refine ⟨Ls_sorted a, fun L => ?_⟩
  rw [mem_Ls h]
  constructor
  · rintro ⟨h1, h2⟩
    exact ⟨h1, _, dimXspace_at h (by have := h.2.2.1; omega), by omega⟩
  · rintro ⟨h1, d, h2, h3⟩
    rw [dimXspace_at h (by have := h.2.2.1; omega)] at h2
    injection h2 with h2
    exact ⟨h1, by omega⟩

theorem range_nonneg {a : XArgs} (h : LegalRanges a) : ∀ L ∈ pyRange a.L_min (a.L_max + 1), 0 ≤ L := by
  intro L hL
  rw [mem_pyRange] at hL
  have := h.2.2.1
  omega

/-- C32 for tame Hamiltonians (those without `Pi`, `[pi x pi]_2`, `[pi x pi]_4`): the L
values are the occupied ones, in increasing order; for each of them the matrix of the Hamiltonian
on the states with this L is diagonalised, and there are as many
eigenvalues as `dimXspace` says. -/
theorem C32_partial {env : XEnv} {ham : OperatorSum} (ht : Op_Tame ham = true) {a : XArgs}
    (h : LegalRanges a) {s s' : FState} (hs : MemoOk env s.xs) {r : List LEig}
    (hr : DigXspace env ham a s = (.ok r, s')) :
    OccupiedL a (r.map LEig.L) ∧ ∀ x ∈ r,
      dimXspace a.nu_min a.nu_max a.v_min a.v_max x.L none = .ok (x.vals.length : Int) ∧
      ∃ M v, (RepXspace env ham (a.at x.L) s.xs).1 = .ok M ∧ Eigenfiddle env.la M = .ok (v, x.basis) ∧
        x.vals = (List.range M.rows).map v := by
  unfold DigXspace at hr
  rw [check_ok h, st_lift_ok, if_pos ht] at hr
  obtain ⟨h1, h2, _, _⟩ := digTame_ok h _ (range_nonneg h) _ _ _ hs hr
  refine ⟨by rw [h1]; exact occupied_Ls h, fun x hx => ?_⟩
  have hL : 0 ≤ x.L := by
    have : x.L ∈ r.map LEig.L := List.mem_map_of_mem hx
    rw [h1] at this
    exact range_nonneg h _ (List.mem_filter.1 this).1
  obtain ⟨M, hM, hE⟩ := h2 x hx
  have hsq := allMat_square (legal_at h hL) hM
  obtain ⟨v, P, e1, e2⟩ := Eigenlist_ok env.la hsq.1 hsq.2.1
  rw [e2] at hE
  injection hE with hE
  injection hE with hv hP
  refine ⟨?_, M, v, ?_, ?_, ?_⟩
  · rw [dimXspace_at h hL, ← hv, List.length_map, List.length_range]
  · rw [rep_eq (legal_at h hL) hs]; exact hM
  · rw [← hP]; exact e1
  · rw [← hv, hsq.1]

/-- C32: with illegal ranges, `DigXspace` raises and changes nothing. -/
theorem C32_illegal (env : XEnv) (ham : OperatorSum) {a : XArgs} (h : ¬ LegalRanges a) (s : FState) :
    DigXspace env ham a s = (.error .valueError, s) := by
  unfold DigXspace
  rw [check_err h, st_lift_error]

/-- An illegal range. -/
example (env : XEnv) (ham : OperatorSum) (s : FState) :
    DigXspace env ham ⟨1, 5 / 2, 0, 5, 0, 6, 4, 2⟩ s = (.error .valueError, s) :=
  C32_illegal env ham (by simp [LegalRanges]) s

/-- C32 for the other Hamiltonians: the L values are the occupied ones, but each but the last one gets
one eigenvalue too many, and the matrix of eigenvectors has as many rows and columns. -/
theorem C32_untame {env : XEnv} {ham : OperatorSum} (ht : Op_Tame ham = false) {a : XArgs}
    (h : LegalRanges a) {s : FState} (hs : MemoOk env s.xs) {M : Arr}
    (hM : (RepXspace env ham a s.xs).1 = .ok M) :
    ∃ r, (DigXspace env ham a s).1 = .ok r ∧ OccupiedL a (r.map LEig.L) ∧
      (∀ pre x post, r = pre ++ x :: post → ∃ d : ℕ,
        dimXspace a.nu_min a.nu_max a.v_min a.v_max x.L none = .ok (d : Int) ∧
        x.vals.length = if post = [] then d else d + 1) ∧
      (LinAlgOk env.la → ∀ x ∈ r, x.basis.rows = x.vals.length ∧ x.basis.cols = x.vals.length) := by
  rw [rep_eq h hs] at hM
  obtain ⟨s1, e1, _, _, _⟩ := liftX_rep h hs ham
  have hsq := allMat_square h hM
  have hM' : allMat env a ham s.glb.lam_fun = .ok M := hM
  obtain ⟨r, hr, hr1, hr2, hr3⟩ := digUntame_ok (la := env.la) h hsq _ (range_nonneg h) 0 (by rw [dim_sum]; omega)
  refine ⟨r, ?_, by rw [hr1]; exact occupied_Ls h, fun pre x post hh => ?_, fun hla x hx => ?_⟩
  · unfold DigXspace
    rw [check_ok h, st_lift_ok, if_neg (by rw [ht]; simp), st_bind_ok (e1.trans (by rw [hM'])), dimRadial_eq h, st_lift]
    exact hr
  · have hL : 0 ≤ x.L := by
      have : x.L ∈ r.map LEig.L := by rw [hh]; simp
      rw [hr1] at this
      exact range_nonneg h _ (List.mem_filter.1 this).1
    refine ⟨_, dimXspace_at h hL, ?_⟩
    rw [hr2 pre x post hh]
    split_ifs <;> rfl
  · obtain ⟨H, h1, h2, h3⟩ := hr3 x hx
    exact (Eigenlist_shape hla h1 h2 h3).2

/-- C32 fails for every Hamiltonian that is not tame and every range with two or more occupied L
values: some L gets the wrong number of eigenvalues. -/
theorem C32_fails {env : XEnv} {ham : OperatorSum} (ht : Op_Tame ham = false) {a : XArgs}
    (h : LegalRanges a) {s : FState} (hs : MemoOk env s.xs) {M : Arr}
    (hM : (RepXspace env ham a s.xs).1 = .ok M) {L1 L2 d1 d2 : Int} (hL : a.L_min ≤ L1 ∧ L1 < L2 ∧ L2 ≤ a.L_max)
    (h1 : dimXspace a.nu_min a.nu_max a.v_min a.v_max L1 none = .ok d1) (n1 : d1 ≠ 0)
    (h2 : dimXspace a.nu_min a.nu_max a.v_min a.v_max L2 none = .ok d2) (n2 : d2 ≠ 0) :
    ∃ r, (DigXspace env ham a s).1 = .ok r ∧ ∃ x ∈ r,
      dimXspace a.nu_min a.nu_max a.v_min a.v_max x.L none ≠ .ok (x.vals.length : Int) := by
  obtain ⟨r, hr, ho, hc, _⟩ := C32_untame ht h hs hM
  have m1 : L1 ∈ r.map LEig.L := (ho.2 L1).2 ⟨⟨hL.1, by omega⟩, d1, h1, n1⟩
  have m2 : L2 ∈ r.map LEig.L := (ho.2 L2).2 ⟨⟨by omega, hL.2.2⟩, d2, h2, n2⟩
  refine ⟨r, hr, ?_⟩
  match r, m1, m2, hc with
  | [], m1, _, _ => cases m1
  | [x], m1, m2, _ =>
    simp only [List.map_cons, List.map_nil, List.mem_singleton] at m1 m2
    omega
  | x :: y :: r', _, _, hc =>
    obtain ⟨d, e1, e2⟩ := hc [] x (y :: r') rfl
    refine ⟨x, List.mem_cons_self, ?_⟩
    rw [e1, e2, if_neg (by simp)]
    intro hh
    injection hh with hh
    push_cast at hh
    omega

/-- A range with the two states (2, 1, 2) and (2, 1, 4). -/
noncomputable def arg22 : XArgs := ⟨1, 5 / 2, 0, 0, 2, 2, 2, 4⟩

theorem arg22_legal : LegalRanges arg22 := by unfold LegalRanges arg22; simp

theorem arg22_states : arg22.states = [(2, 1, 2), (2, 1, 4)] := by
  have h : lbsSO5r3_rngVvarL 2 2 2 (some 4) = .ok [(2, 1, 2), (2, 1, 4)] := by decide +kernel
  have := (states_ok arg22_legal).symm.trans h
  injection this

theorem rep_arg22 (env : XEnv) (lam : LambdaFunction) {l : Int} (hl : lam 2 = .ok l) (hp : (0 : ℝ) < 5 / 2 + l) :
    ∃ M, allMat env arg22 [(fun _ => 1, [.Pi])] lam = .ok M := by
  obtain ⟨n, hn, hT⟩ := C29_identity arg22_legal env lam (states_ok arg22_legal) (fun _ => l)
    (fun s hs => by rw [arg22_states] at hs; simp at hs; rcases hs with rfl | rfl <;> exact hl)
    (fun s _ => hp)
  have hb : ∀ i < 2, ∀ j < 2, BodyGives lam arg22.states (piBlock env lam arg22) i j none := by
    intro i hi j hj
    have : (i = 0 ∨ i = 1) ∧ (j = 0 ∨ j = 1) := by omega
    rw [arg22_states]
    rcases this with ⟨rfl | rfl, rfl | rfl⟩ <;> refine ⟨_, _, l, rfl, rfl, hl, ?_⟩ <;> simp [piBlock, hl]
  have hPi : ∃ P, RepXspace_Pi env lam arg22 = .ok P := by
    rw [Pi_eq arg22_legal]
    refine ⟨_, (fillBlocks_iff (rdim_pos arg22_legal) (fun _ => ⟨rfl, rfl⟩)).2 ⟨fun _ _ => none, ?_, rfl⟩⟩
    intro i hi j hj
    rw [show arg22.states.length = 2 by rw [arg22_states]; rfl] at hi hj
    exact ⟨hb i hi j hj, fun B hB => by cases hB⟩
  obtain ⟨P, hP⟩ := hPi
  refine ⟨_, (allMat_iff arg22_legal).2 (.inr ⟨_, [], P.mul (Arr.eye n), [], rfl, ?_, .nil, rfl⟩)⟩
  unfold prodMat
  rw [check_ok arg22_legal, py_bind_ok, show segsOf [.Pi] [] [] = [.whole .Pi, .twin [] []] from rfl]
  simp only [segMat, segsMat, hP, py_bind_ok, hT]
  rfl

/-- The hypotheses of C32_fails are met, in every environment: by the operator `Pi` on this range, in the
initial state. -/
example (env : XEnv) (out : List Shown) :
    let s : FState := ⟨Glb.init, fun _ => none, fun _ _ => none, fun _ => none, out⟩
    Op_Tame [(fun _ => 1, [.Pi])] = false ∧ LegalRanges arg22 ∧ MemoOk env s.xs ∧
      (∃ M, (RepXspace env [(fun _ => 1, [.Pi])] arg22 s.xs).1 = .ok M) ∧
      dimXspace 0 0 2 2 2 none = .ok 1 ∧ dimXspace 0 0 2 2 4 none = .ok 1 := by
  intro s
  have hs : MemoOk env s.xs := memoOk_start env lambda_acm_fun
  refine ⟨by decide, arg22_legal, hs, ?_, by decide +kernel, by decide +kernel⟩
  rw [rep_eq arg22_legal hs]
  exact rep_arg22 env _ (l := 0) (show lambda_acm_fun 2 = .ok 0 by decide +kernel) (by norm_num)

/-- The hypotheses of C32_partial are met, in every environment: the empty sum is tame, and
it is diagonalised on a range with two L values. -/
example (env : XEnv) (out : List Shown) :
    let s : FState := ⟨Glb.init, fun _ => none, fun _ _ => none, fun _ => none, out⟩
    ∃ r s', Op_Tame [] = true ∧ DigXspace env [] arg22 s = (.ok r, s') ∧ r.map LEig.L = [2, 4] := by
  intro s
  have hs : MemoOk env s.xs := memoOk_start env lambda_acm_fun
  have key : ∀ (Ls : List Int), (∀ L ∈ Ls, 0 ≤ L) → ∀ s : FState, FOk env s →
      ∃ r s', digTame env [] arg22 Ls s = (.ok r, s') := by
    intro Ls
    induction Ls with
    | nil => intro _ s _; exact ⟨_, _, rfl⟩
    | cons L Ls ih =>
      intro hLs s hs
      have hL := hLs L List.mem_cons_self
      have ih := ih fun M hM => hLs M (List.mem_cons_of_mem _ hM)
      rw [digTame, rngV_at arg22_legal hL, st_lift_ok]
      by_cases ho : ((arg22.at L).states.length : Int) > 0
      · rw [if_pos ho]
        obtain ⟨s1, e1, hok, _, _⟩ := liftX_rep (legal_at arg22_legal hL) hs []
        have hz : allMat env (arg22.at L) [] s.glb.lam_fun
            = .ok (Arr.zeros (arg22.at L).dim (arg22.at L).dim) :=
          (allMat_iff (legal_at arg22_legal hL)).2 (.inl ⟨rfl, rfl⟩)
        rw [hz] at e1
        obtain ⟨v, P, _, e2⟩ := Eigenlist_ok env.la (n := (arg22.at L).dim)
          (M := Arr.zeros (arg22.at L).dim (arg22.at L).dim) rfl rfl
        obtain ⟨r, s', e3⟩ := ih s1 hok
        rw [st_bind_ok e1, e2, st_lift_ok, st_bind_ok e3]
        exact ⟨_, _, rfl⟩
      · rw [if_neg ho]; exact ih s hs
  obtain ⟨r, s', e⟩ := key (pyRange 2 5) (by intro L hL; rw [mem_pyRange] at hL; omega) s hs
  have e' : DigXspace env [] arg22 s = (.ok r, s') := by
    unfold DigXspace
    rw [check_ok arg22_legal, st_lift_ok, if_pos (by decide)]
    exact e
  refine ⟨r, s', by decide, e', ?_⟩
  rw [(digTame_ok arg22_legal _ (by intro L hL; rw [mem_pyRange] at hL; omega) _ _ _ hs e).1]
  have hL : ∀ L : Int, arg22.occ L = decide (0 < (labelsV 2 2 L L).length) := fun _ => rfl
  rw [List.filter_congr (fun L _ => hL L)]
  decide +kernel

end Acm.Props
