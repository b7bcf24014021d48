import Verif.Lemmas.FullFill
import Verif.Lemmas.Spherical
import Verif.Spec.FullOps
import Verif.Spec.Spherical

/-!
# Lemmas on the full space
-/

namespace Acm

open Acm.Spec

/-! ### labels -/

theorem getElem?_flatMap_map {α β : Type} (rs : List β) (ss : List α) (i x : ℕ) (hx : x < rs.length) :
    (ss.flatMap fun s => rs.map fun b => (b, s))[i * rs.length + x]? = ss[i]?.map fun s => (rs[x], s) := by
  induction ss generalizing i with
  | nil => simp
  | cons s ss ih =>
    rw [List.flatMap_cons]
    cases i with
    | zero =>
      rw [List.getElem?_append_left (by simpa using hx)]
      simp [hx]
    | succ i =>
      rw [List.getElem?_append_right (by simp; nlinarith), List.length_map,
        show (i + 1) * rs.length + x - rs.length = i * rs.length + x by
          rw [Nat.add_mul, Nat.one_mul]; omega, ih i]
      simp

theorem length_flatMap_map {α β : Type} (rs : List β) (ss : List α) :
    (ss.flatMap fun s => rs.map fun b => (b, s)).length = ss.length * rs.length := by
  induction ss with
  | nil => simp
  | cons s ss ih => rw [List.flatMap_cons, List.length_append, ih, List.length_map, List.length_cons]; ring

theorem nodup_flatMap_map {α β : Type} {rs : List β} {ss : List α} (h1 : rs.Nodup) (h2 : ss.Nodup) :
    (ss.flatMap fun s => rs.map fun b => (b, s)).Nodup := by
  rw [List.nodup_flatMap]
  refine ⟨fun s _ => h1.map fun a b h => (Prod.mk.injEq _ _ _ _ ▸ h).1, h2.imp ?_⟩
  intro a b hab x hx hy
  simp only [List.mem_map] at hx hy
  obtain ⟨i, _, rfl⟩ := hx
  obtain ⟨k, _, h⟩ := hy
  simp only [Prod.mk.injEq] at h
  exact hab h.2.symm

/-- The spherical labels of the space given by `a`. -/
def XArgs.states (a : XArgs) : List Label := labelsV a.v_min a.v_max a.L_min a.L_max

/-- The radial dimension. -/
def XArgs.rdim (a : XArgs) : ℕ := (a.nu_max - a.nu_min + 1).toNat

/-- The dimension of the full space. -/
def XArgs.dim (a : XArgs) : ℕ := a.states.length * a.rdim

/-- The labels of the full space. -/
def XArgs.xlabels (a : XArgs) : List XspaceLabel :=
  a.states.flatMap fun s => (lbsRadial a.nu_min a.nu_max).map fun nu => (nu, s)

theorem rdim_pos {a : XArgs} (h : LegalRanges a) : 0 < a.rdim := by
  unfold XArgs.rdim; have := h.1.2; omega

theorem dimRadial_eq {a : XArgs} (h : LegalRanges a) : dimRadial a.nu_min a.nu_max = (a.rdim : Int) := by
  unfold dimRadial XArgs.rdim
  have := h.1.2
  rw [if_pos (by omega)]; omega

theorem length_lbsRadial (a : XArgs) : (lbsRadial a.nu_min a.nu_max).length = a.rdim := by
  unfold lbsRadial XArgs.rdim
  rw [length_pyRange]; congr 1; omega

theorem length_xlabels (a : XArgs) : a.xlabels.length = a.dim := by
  unfold XArgs.xlabels XArgs.dim
  rw [length_flatMap_map, length_lbsRadial]

theorem getElem?_xlabels (a : XArgs) (i x : ℕ) (hx : x < a.rdim) :
    a.xlabels[i * a.rdim + x]? = a.states[i]?.map fun s => (a.nu_min + x, s) := by
  unfold XArgs.xlabels
  have hx' : x < (lbsRadial a.nu_min a.nu_max).length := by rw [length_lbsRadial]; exact hx
  have := getElem?_flatMap_map (lbsRadial a.nu_min a.nu_max) a.states i x hx'
  rw [length_lbsRadial] at this
  rw [this]
  congr 1
  funext s
  rw [show (lbsRadial a.nu_min a.nu_max)[x] = a.nu_min + x from getElem_pyRange hx']

/-- Each position is that of a spherical state and a radial one. -/
theorem xlabels_split {a : XArgs} {p : ℕ} {nu : Int} {s : Label} (h : a.xlabels[p]? = some (nu, s)) :
    ∃ i x : ℕ, p = i * a.rdim + x ∧ x < a.rdim ∧ a.states[i]? = some s ∧ nu = a.nu_min + x := by
  obtain ⟨hp, _⟩ := List.getElem?_eq_some_iff.1 h
  rw [length_xlabels, XArgs.dim] at hp
  have hr : 0 < a.rdim := by
    rcases Nat.eq_zero_or_pos a.rdim with h0 | h0
    · rw [h0] at hp; simp at hp
    · exact h0
  have hx := Nat.mod_lt p hr
  have e := getElem?_xlabels a (p / a.rdim) (p % a.rdim) hx
  rw [Nat.div_add_mod', h] at e
  cases hs : a.states[p / a.rdim]? with
  | none => rw [hs] at e; cases e
  | some t =>
    rw [hs] at e
    simp only [Option.map_some, Option.some.injEq, Prod.mk.injEq] at e
    exact ⟨p / a.rdim, p % a.rdim, (Nat.div_add_mod' p _).symm, hx, by rw [hs, e.2], e.1⟩

theorem check_ok {a : XArgs} (h : LegalRanges a) : a.check = .ok () := by
  unfold XArgs.check
  rw [require_nonnegint_range_ok h.1.1 h.1.2, py_bind_ok, require_nonnegint_range_ok h.2.1.1 h.2.1.2,
    py_bind_ok, require_nonnegint_range_ok h.2.2.1 h.2.2.2]

theorem check_err {a : XArgs} (h : ¬ LegalRanges a) : a.check = .error .valueError := by
  unfold XArgs.check
  by_cases h1 : 0 ≤ a.nu_min ∧ a.nu_min ≤ a.nu_max
  · rw [require_nonnegint_range_ok h1.1 h1.2, py_bind_ok]
    by_cases h2 : 0 ≤ a.v_min ∧ a.v_min ≤ a.v_max
    · rw [require_nonnegint_range_ok h2.1 h2.2, py_bind_ok, require_nonnegint_range_err]
      exact fun h3 => h ⟨h1, h2, h3⟩
    · rw [require_nonnegint_range_err h2]; rfl
  · rw [require_nonnegint_range_err h1]; rfl

theorem states_ok {a : XArgs} (h : LegalRanges a) :
    lbsSO5r3_rngVvarL a.v_min a.v_max a.L_min (some a.L_max) = .ok a.states :=
  lbsSO5r3_rngVvarL_some_ok h.2.1.1 h.2.1.2 h.2.2.1 h.2.2.2

theorem sphDim_ok {a : XArgs} (h : LegalRanges a) :
    dimSO5r3_rngVvarL a.v_min a.v_max a.L_min (some a.L_max) = .ok (a.states.length : Int) := by
  rw [dimSO5r3_rngVvarL, dimSO5r3_rngVrngL_ok h.2.1.1 h.2.1.2 h.2.2.1 h.2.2.2, XArgs.states,
    length_labelsV, sum_swap]

theorem dimXspace_ok {a : XArgs} (h : LegalRanges a) :
    dimXspace a.nu_min a.nu_max a.v_min a.v_max a.L_min (some a.L_max) = .ok (a.dim : Int) := by
  unfold dimXspace
  rw [require_nonnegint_range_ok h.1.1 h.1.2, py_bind_ok]
  simp only [Option.getD_some]
  rw [require_nonnegint_range_ok h.2.2.1 h.2.2.2, py_bind_ok, sphDim_ok h, py_bind_ok, dimRadial_eq h,
    XArgs.dim]
  push_cast
  rw [mul_comm]
  rfl

theorem lbsXspace_ok {a : XArgs} (h : LegalRanges a) :
    lbsXspace a.nu_min a.nu_max a.v_min a.v_max a.L_min (some a.L_max) = .ok a.xlabels := by
  unfold lbsXspace
  rw [require_nonnegint_range_ok h.1.1 h.1.2, py_bind_ok, require_nonnegint_range_ok h.2.1.1 h.2.1.2,
    py_bind_ok]
  simp only [Option.getD_some]
  rw [require_nonnegint_range_ok h.2.2.1 h.2.2.2, py_bind_ok, states_ok h, py_bind_ok]
  rfl

/-! ### the four kinds of matrices as filled blocks -/

theorem Twin_eq {a : XArgs} (h : LegalRanges a) (env : XEnv) (lam : LambdaFunction) (rs : List RadSym)
    (ss : List OpSym) {S : Arr}
    (hS : RepSO5r3_Prod_wrk env.CG (sphItems ss) a.v_min a.v_max a.L_min a.L_max = .ok S) :
    RepXspace_Twin env lam rs ss a = fillBlocks lam (a.rdim : Int) (a.states.length : Int) a.states
      (twinBlock env lam rs (S.smul (Convert_red ^ (NumSO5r3_Prod (sphItems ss)).toNat)) a) id := by
  unfold RepXspace_Twin
  rw [check_ok h, py_bind_ok, sphDim_ok h, py_bind_ok, states_ok h, py_bind_ok, hS, py_bind_ok,
    dimRadial_eq h]

theorem Twin_sph {a : XArgs} (h : LegalRanges a) {env : XEnv} {lam : LambdaFunction} {rs : List RadSym}
    {ss : List OpSym} {M : Arr} (hM : RepXspace_Twin env lam rs ss a = .ok M) :
    ∃ S, RepSO5r3_Prod_wrk env.CG (sphItems ss) a.v_min a.v_max a.L_min a.L_max = .ok S := by
  unfold RepXspace_Twin at hM
  rw [check_ok h, py_bind_ok, sphDim_ok h, py_bind_ok, states_ok h, py_bind_ok] at hM
  obtain ⟨S, hS, _⟩ := py_bind_eq_ok hM
  exact ⟨S, hS⟩

theorem Pi_eq {a : XArgs} (h : LegalRanges a) (env : XEnv) (lam : LambdaFunction) :
    RepXspace_Pi env lam a = fillBlocks lam (a.rdim : Int) (a.states.length : Int) a.states
      (piBlock env lam a) id := by
  unfold RepXspace_Pi
  rw [check_ok h, py_bind_ok, sphDim_ok h, py_bind_ok, states_ok h, py_bind_ok, dimRadial_eq h]
  simp [pyAssert]

theorem PiPi_eq {a : XArgs} (h : LegalRanges a) (env : XEnv) (lam : LambdaFunction) {L : Int}
    (hL : 0 ≤ L) :
    RepXspace_PiPi env lam L a = fillBlocks lam (a.rdim : Int) (a.states.length : Int) a.states
      (pipiBlock env lam L a) fun M => if L = 2 then M.neg else M := by
  unfold RepXspace_PiPi
  rw [require_nonnegint_ok hL, py_bind_ok, check_ok h, py_bind_ok, sphDim_ok h, py_bind_ok,
    states_ok h, py_bind_ok, dimRadial_eq h]

theorem PiqPi_eq {a : XArgs} (h : LegalRanges a) (env : XEnv) (lam : LambdaFunction) :
    RepXspace_PiqPi env lam a = fillBlocks lam (a.rdim : Int) (a.states.length : Int) a.states
      (piqpiBlock env lam a) id := by
  unfold RepXspace_PiqPi
  rw [check_ok h, py_bind_ok, sphDim_ok h, py_bind_ok, states_ok h, py_bind_ok, dimRadial_eq h]

end Acm
