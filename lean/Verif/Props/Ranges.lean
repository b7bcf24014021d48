import Verif.Props.FullDig

/-!
# Property C08 for the full space: illegal ranges are rejected at every entry

Every function of the full space that takes ranges rejects the illegal ones with `ValueError`
before it does anything: no matrix is computed, no memo table filled, nothing displayed, no
setting changed.
-/

namespace Acm.Props

open Acm Acm.Spec

/-- C08: the representations of operators reject illegal ranges, and fill no table. -/
theorem C08_operators {a : XArgs} (h : ¬ LegalRanges a) (env : XEnv) (lam : LambdaFunction) (s : XState) :
    (∀ rs ss, RepXspace_Twin env lam rs ss a = .error .valueError) ∧
    RepXspace_Pi env lam a = .error .valueError ∧
    (∀ L, RepXspace_PiPi env lam L a = .error .valueError) ∧
    RepXspace_PiqPi env lam a = .error .valueError ∧
    (∀ ops, RepXspace_Prod env ops a s = (.error .valueError, s)) ∧
    ∀ op, RepXspace env op a s = (.error .valueError, s) := by
  refine ⟨fun rs ss => ?_, ?_, fun L => ?_, ?_, fun ops => ?_, fun op => ?_⟩
  · unfold RepXspace_Twin
    rw [check_err h, py_bind_error]
  · unfold RepXspace_Pi
    rw [check_err h, py_bind_error]
  · unfold RepXspace_PiPi
    by_cases hL : 0 ≤ L
    · rw [require_nonnegint_ok hL, py_bind_ok, check_err h, py_bind_error]
    · rw [require_nonnegint_err (by omega), py_bind_error]
  · unfold RepXspace_PiqPi
    rw [check_err h, py_bind_error]
  · unfold RepXspace_Prod
    rw [check_err h, st_lift_error]
  · unfold RepXspace
    rw [check_err h, st_lift_error]

/-- C08: so do the calculations; they also reject negative switches. -/
theorem C08_calculation {a : XArgs} (env : FEnv) (ham : OperatorSum) (fit_eig fit_rat : Int) (s : FState)
    (h : ¬ LegalRanges a ∨ fit_eig < 0 ∨ fit_rat < 0) :
    ACM_ScaleOrAdapt env fit_eig fit_rat ham a s = (.error .valueError, s) := by
  unfold ACM_ScaleOrAdapt
  by_cases h1 : fit_eig < 0
  · rw [require_nonnegint_err h1, st_lift_error]
  by_cases h2 : fit_rat < 0
  · rw [require_nonnegint_ok (by omega), st_lift_ok, require_nonnegint_err h2, st_lift_error]
  rw [require_nonnegint_ok (by omega), st_lift_ok, require_nonnegint_ok (by omega), st_lift_ok,
    check_err (by tauto), st_lift_error]

/-- C08: in particular `ACM_Scale` and `ACM_Adapt` reject illegal ranges and change nothing. -/
theorem C08_scale_adapt {a : XArgs} (h : ¬ LegalRanges a) (env : FEnv) (ham : OperatorSum) (s : FState) :
    ACM_Scale env ham a s = (.error .valueError, s) ∧ ACM_Adapt env ham a s = (.error .valueError, s) :=
  ⟨C08_calculation env ham 0 0 s (.inl h), C08_calculation env ham 1 1 s (.inl h)⟩

/-- C08: amplitudes between states of angular momenta that are none, negative or not increasing are
rejected. -/
theorem C08_amplitudes (env : FEnv) (op : OperatorSum) (bases : List Arr) (a : XArgs) {Ls : List Int} (s : FState)
    (h : Ls = [] ∨ (∃ L ∈ Ls, L < 0) ∨ ¬ Ls.Pairwise (· < ·)) :
    AmpXspeig env op bases a Ls s = (.error .valueError, s) := by
  unfold AmpXspeig
  rw [C08_validate_Lvals, if_neg, st_lift_error]
  rintro ⟨h1, h2, h3⟩
  rcases h with h | ⟨L, hL, h⟩ | h
  · exact h1 h
  · have := h2 L hL
    omega
  · exact h h3

/-- Ranges that are empty, negative or reversed. -/
example : ¬ LegalRanges ⟨1, 5 / 2, 0, 5, 0, 6, 4, 2⟩ ∧ ¬ LegalRanges ⟨1, 5 / 2, -1, 5, 0, 6, 2, 4⟩ ∧
    ¬ LegalRanges ⟨1, 5 / 2, 0, 5, 3, 2, 2, 4⟩ := by simp [LegalRanges]
example : ([] : List Int) = [] ∧ (∃ L ∈ ([0, -2] : List Int), L < 0) ∧ ¬ ([2, 0] : List Int).Pairwise (· < ·) := by
  decide

end Acm.Props
