import Verif.Lemmas.HamData

/-!
# Properties C67, C68, C74, C75, C76: parameters of the basis that suit a Hamiltonian
-/

namespace Acm.Props

open Acm Acm.Spec

/-! ## C67 -/

/-- C67: the cubic has exactly one positive root, for all `B ≠ 0`, `c2 > 0`, whatever the sign of `c1`. -/
theorem C67_cubic {B c1 c2 : ℝ} (hB : B ≠ 0) (h2 : 0 < c2) {v : Int} (hv : 0 ≤ v) :
    ∃! A, 0 < A ∧ RWC1 A B c1 c2 v = 0 := by
  obtain ⟨A0, h0, hz⟩ := RWC1_exists (c1 := c1) hB h2 hv
  refine ⟨A0, ⟨h0, hz⟩, fun A hA => ?_⟩
  obtain ⟨k1, k2⟩ := RWC1_sign hB h2 hv h0 hz
  rcases lt_trichotomy A A0 with h | h | h
  · exact absurd hA.2 (k1 A hA.1 h).ne
  · exact h
  · exact absurd hA.2 (k2 A h).ne'

theorem RWC1_finite (B c1 c2 : ℝ) (v : Int) : {A | RWC1 A B c1 c2 v = 0}.Finite := by
  let p : Polynomial ℝ := Polynomial.X ^ 3 - Polynomial.C (B ^ 2 * c1) * Polynomial.X - Polynomial.C ((2 * (v : ℝ) + 7) * B ^ 2 * c2)
  have hp : p ≠ 0 := by
    intro hh
    have := congrArg (fun q => Polynomial.coeff q 3) hh
    simp only [p, Polynomial.coeff_sub, Polynomial.coeff_X_pow, Polynomial.coeff_C_mul, Polynomial.coeff_X,
      Polynomial.coeff_C, Polynomial.coeff_zero] at this
    norm_num at this
  refine (p.rootSet_finite ℝ).subset fun A hA => ?_
  rw [Polynomial.mem_rootSet]
  refine ⟨hp, ?_⟩
  have hA : A ^ 3 - B ^ 2 * c1 * A - (2 * (v : ℝ) + 7) * B ^ 2 * c2 = 0 := hA
  simp [p]
  linarith

/-- C67: `RWC_alam_clam` finds that root, whatever the order in which the solver lists the solutions. -/
theorem C67_clam {sv : Solver} (hsv : SolverOk sv) {B c1 c2 : ℝ} (hB : B ≠ 0) (h2 : 0 < c2) {v : Int} (hv : 0 ≤ v) :
    ∃ A, 0 < A ∧ RWC1 A B c1 c2 v = 0 ∧ RWC_alam_clam sv B c1 c2 v = .ok (Real.sqrt A, 2.5) := by
  obtain ⟨A, ⟨h0, hz⟩, hu⟩ := C67_cubic (c1 := c1) hB h2 hv
  refine ⟨A, h0, hz, ?_⟩
  obtain ⟨hn, hm⟩ := hsv.solveset (fun A => RWC1 A B c1 c2 v) (RWC1_finite B c1 c2 v)
  have hf : ((sv.solveset fun A => RWC1 A B c1 c2 v).filter fun A0 => open Classical in decide (A0 > 0)) = [A] := by
    set l := ((sv.solveset fun A => RWC1 A B c1 c2 v).filter fun A0 => open Classical in decide (A0 > 0)) with hl
    have hln : l.Nodup := hn.filter _
    have hlm : ∀ x, x ∈ l ↔ x = A := by
      intro x
      rw [hl, List.mem_filter, hm]
      constructor
      · rintro ⟨e1, e2⟩
        exact hu x ⟨by simpa using e2, e1⟩
      · rintro rfl
        exact ⟨hz, by simpa using h0⟩
    match l, hln, hlm with
    | [], _, hlm => exact absurd ((hlm A).2 rfl) (by simp)
    | [x], _, hlm => rw [(hlm x).1 (by simp)]
    | x :: y :: l, hln, hlm =>
      have e1 := (hlm x).1 (by simp)
      have e2 := (hlm y).1 (by simp)
      rw [e1, e2] at hln
      simp at hln
  unfold RWC_alam_clam
  simp only
  rw [hf]
  rfl

/-- C67: the value at 0 given in the comment (line 219); it is negative, so the assertion holds. -/
theorem C67_start {B c1 c2 : ℝ} (hB : B ≠ 0) (h2 : 0 < c2) {v : Int} (hv : 0 ≤ v) :
    F2 B c1 c2 v 0 = -B ^ 2 * c2 * (2 * v + 3) * (2 * v + 5) * (2 * v + 7) ∧ F2 B c1 c2 v 0 < 0 := by
  refine ⟨F2_zero B c1 c2 hv, ?_⟩
  rw [F2_zero B c1 c2 hv]
  have hv' : (0 : ℝ) ≤ v := by exact_mod_cast hv
  have : 0 < B ^ 2 * c2 * (2 * v + 3) * (2 * v + 5) * (2 * v + 7) := by positivity
  linarith

/-- C67: the loop terminates, with a positive value at the end of the bracket, and there is a root inside. -/
theorem C67_bracket {B c1 c2 : ℝ} (hB : B ≠ 0) (h1 : c1 < 0) (h2 : 0 < c2) {v : Int} (hv : 0 ≤ v) :
    ∃ A_pos, (∃ k, ∀ fuel, k < fuel → bracketLoop (F2 B c1 c2 v) fuel 1 = some A_pos) ∧ 0 < A_pos ∧
      F2 B c1 c2 v 0 < 0 ∧ 0 < F2 B c1 c2 v A_pos ∧ ∃ A, 0 < A ∧ A < A_pos ∧ F2 B c1 c2 v A = 0 := by
  obtain ⟨n, hn⟩ := F2_power (B := B) h1 h2 hv
  obtain ⟨k, k1, _, k3⟩ := bracketLoop_stops (F := F2 B c1 c2 v) n 1 (by rw [one_mul]; exact hn)
  have h0 := (C67_start (c1 := c1) hB h2 hv).2
  have hp : (0 : ℝ) < 1 * 2 ^ k := by positivity
  refine ⟨1 * 2 ^ k, ⟨k, k3⟩, hp, h0, k1, ?_⟩
  obtain ⟨A, hA, hz⟩ := intermediate_value_Icc hp.le (F2_cont B c1 c2 hv).continuousOn ⟨h0.le, k1.le⟩
  refine ⟨A, lt_of_le_of_ne hA.1 fun hh => ?_, lt_of_le_of_ne hA.2 fun hh => ?_, hz⟩
  · rw [← hh] at hz; exact h0.ne hz
  · rw [hh] at hz; exact k1.ne' hz

/-- C67: there is exactly one positive root ("There is always one positive solution in this case (in fact, I've
never found other real solns)", lines 127-129). -/
theorem C67_unique {B c1 c2 : ℝ} (hB : B ≠ 0) (h1 : c1 < 0) (h2 : 0 < c2) {v : Int} (hv : 0 ≤ v) :
    ∃! A, 0 < A ∧ RWC2 A (muf A c1 c2 v) B c1 c2 v = 0 := by
  obtain ⟨_, _, _, _, _, A0, h0, _, hz⟩ := C67_bracket hB h1 h2 hv
  refine ⟨A0, ⟨h0, hz⟩, fun A hA => ?_⟩
  obtain ⟨k1, k2⟩ := F2_sign h1 h2 hv h0 hz
  rcases lt_trichotomy A A0 with h | h | h
  · exact absurd hA.2 (k1 A hA.1 h).ne
  · exact h
  · exact absurd hA.2 (k2 A h).ne'

/-- C67: a negative seniority is rejected, and so is a potential which is not bounded below, before any equation is
solved. -/
theorem C67_rejects (sv : Solver) (fuel : ℕ) {B c1 c2 : ℝ} {v : Int} (h : v < 0 ∨ c1 < 0 ∧ c2 ≤ 0) :
    RWC_alam sv fuel B c1 c2 v = some (.error .valueError) := by
  unfold RWC_alam
  by_cases hv : v < 0
  · rw [if_pos hv]; rfl
  · rw [if_neg hv]
    rcases h with h | ⟨h1, h2⟩
    · exact absurd h hv
    · rw [if_neg (not_le.2 h1), if_pos h2]; rfl

/-- The potential `-beta^2` is one. -/
example : (-1 : ℝ) < 0 ∧ (0 : ℝ) ≤ 0 := by norm_num

/-- C67: so, if the root finder converges, `RWC_alam` returns the square root of the positive root and the
corresponding `lambda`, after finitely many passes of the loop. -/
theorem C67_alam {sv : Solver} (hsv : SolverOk sv) {B c1 c2 : ℝ} (hB : B ≠ 0) (h1 : c1 < 0) (h2 : 0 < c2) {v : Int}
    (hv : 0 ≤ v) : ∃ k, ∀ fuel, k < fuel →
      RWC_alam sv fuel B c1 c2 v = some (.error .valueError) ∨
      ∃ A, 0 < A ∧ RWC2 A (muf A c1 c2 v) B c1 c2 v = 0 ∧
        RWC_alam sv fuel B c1 c2 v = some (.ok (Real.sqrt A, 1 + muf A c1 c2 v / 2)) := by
  obtain ⟨A_pos, ⟨k, hk⟩, hp, h0, hpos, _⟩ := C67_bracket hB h1 h2 hv
  refine ⟨k, fun fuel hf => ?_⟩
  have e : RWC_alam sv fuel B c1 c2 v = match sv.root_scalar (F2 B c1 c2 v) 0 A_pos with
      | none => some (throw .valueError)
      | some aa0 => some (pure (Real.sqrt aa0, 1 + muf aa0 c1 c2 v / 2)) := by
    unfold RWC_alam RWC_alam_neg
    rw [if_neg (by omega), if_neg (by linarith), if_neg (by linarith), if_neg (not_not.2 h0), hk fuel hf]
    rfl
  rw [e]
  cases hr : sv.root_scalar (F2 B c1 c2 v) 0 A_pos with
  | none => exact .inl rfl
  | some A =>
    obtain ⟨k1, _, k3⟩ := hsv.root_scalar _ _ _ _ (F2_cont B c1 c2 hv) hp h0 hpos hr
    refine .inr ⟨A, lt_of_le_of_ne k1 fun hh => ?_, k3, rfl⟩
    rw [← hh] at k3
    exact h0.ne k3

/-- Solvers as assumed exist, and there is one that always converges. -/
theorem solver_exists : ∃ sv : Solver, SolverOk sv ∧ ∀ F lo hi, Continuous F → lo < hi → F lo < 0 → 0 < F hi →
    ∃ r, sv.root_scalar F lo hi = some r := by
  classical
  refine ⟨⟨fun F => if h : {x | F x = 0}.Finite then h.toFinset.toList else [],
    fun F lo hi => if h : ∃ r, lo ≤ r ∧ r ≤ hi ∧ F r = 0 then some h.choose else none⟩, ⟨?_, ?_⟩, ?_⟩
  · intro F hF
    simp only [dif_pos hF]
    exact ⟨Finset.nodup_toList _, fun x => by simp⟩
  · intro F lo hi r _ _ _ _ hr
    simp only at hr
    split_ifs at hr with h
    injection hr with hr
    rw [← hr]
    exact h.choose_spec
  · intro F lo hi hF hlt h0 h1
    obtain ⟨r, hr, hz⟩ := intermediate_value_Icc hlt.le hF.continuousOn ⟨h0.le, h1.le⟩
    exact ⟨_, dif_pos ⟨r, hr.1, hr.2, hz⟩⟩

/-- A case of C67: the parameters of the documentation, with `c1 = 1 - 2 alpha` and `c2 = alpha` for `alpha = 1.5`. -/
example : ∃ sv, SolverOk sv ∧ (50 : ℝ) ≠ 0 ∧ (-2 : ℝ) < 0 ∧ (0 : ℝ) < 1.5 ∧ (0 : Int) ≤ 0 := by
  obtain ⟨sv, h, _⟩ := solver_exists
  exact ⟨sv, h, by norm_num⟩

/-! ## C68 -/

theorem RWC_dav_eq {c1 c2 : ℝ} (h2 : 0 < c2) (v : ℕ) (a : ℝ) : RWC_dav c1 c2 a v = lamOf c1 c2 v (a ^ 2) := by
  unfold RWC_dav lam_dav lamOf beta_dav
  congr 2
  rw [Int.cast_natCast, show (1.5 : ℝ) = 3 / 2 by norm_num]
  split_ifs with h
  · rw [max_eq_left (div_nonpos_of_nonpos_of_nonneg (by linarith) (by linarith))]
    ring
  · push Not at h
    have hp : 0 < -c1 / (c2 * 2) := div_pos (by linarith) (by linarith)
    rw [max_eq_right (by rw [mul_comm 2]; exact hp.le), show (a * Real.sqrt (-c1 / (c2 * 2))) ^ 4 =
      (a ^ 2 * Real.sqrt (-c1 / (c2 * 2)) ^ 2) ^ 2 by ring, Real.sq_sqrt hp.le, mul_comm c2]

theorem lamOf_gt (c1 c2 : ℝ) (v : ℕ) (A : ℝ) : 1 < lamOf c1 c2 v A := by
  unfold lamOf
  have : 0 < Real.sqrt ((v + 3 / 2) ^ 2 + (A * max 0 (-c1 / (2 * c2))) ^ 2) := Real.sqrt_pos.2 (by positivity)
  linarith

/-- `RWC_expt` is the energy. -/
theorem RWC_expt_eq {B c1 c2 kappa a lam : ℝ} (hB : B ≠ 0) (ha : a ≠ 0) (hl : lam ≠ 1) :
    RWC_expt B c1 c2 kappa a lam = .ok (energy B c1 c2 kappa 0 lam (a ^ 2)) := by
  unfold RWC_expt energy
  rw [if_neg ha, if_neg hl, if_neg hB]
  refine congrArg Except.ok ?_
  have : lam - 1 ≠ 0 := sub_ne_zero.2 hl
  push_cast
  field_simp
  ring

/-- `RWC_expt_link` as a function. -/
theorem RWC_expt_link_eq {B c1 c2 kappa a : ℝ} (hB : B ≠ 0) (h2 : 0 < c2) (ha : a ≠ 0) :
    RWC_expt_link B c1 c2 kappa a = .ok (energy B c1 c2 kappa 0 (lamOf c1 c2 0 (a ^ 2)) (a ^ 2)) := by
  unfold RWC_expt_link
  have := RWC_dav_eq (c1 := c1) h2 0 a
  rw [Nat.cast_zero] at this
  rw [this, RWC_expt_eq hB ha (lamOf_gt _ _ _ _).ne']

/-- C68, any seniority, `c1 < 0`: `RWC2` vanishes exactly where the energy is stationary. -/
theorem C68_seniority_neg {B c1 c2 : ℝ} (kappa : ℝ) (hB : B ≠ 0) (h1 : c1 < 0) (h2 : 0 < c2) (v : ℕ) {A : ℝ} (hA : 0 < A) :
    DifferentiableAt ℝ (fun A => energy B c1 c2 kappa v (lamOf c1 c2 v A) A) A ∧
      (deriv (fun A => energy B c1 c2 kappa v (lamOf c1 c2 v A) A) A = 0 ↔ RWC2 A (muf A c1 c2 v) B c1 c2 v = 0) := by
  have h := energy_deriv_neg kappa hB h1 h2 v hA.ne'
  have hm : muf A c1 c2 v ≠ 0 := by rw [muf_eq]; exact (rootV_pos (vshftf_pos (by positivity)) _).ne'
  refine ⟨h.differentiableAt, ?_⟩
  rw [h.deriv, div_eq_zero_iff]
  have : 4 * A ^ 3 * B * muf A c1 c2 v ≠ 0 := by positivity
  exact or_iff_left this

theorem energy_deriv_nonneg {B c1 c2 : ℝ} (kappa : ℝ) (hB : B ≠ 0) (v : ℕ) {A : ℝ} (hA : A ≠ 0) :
    HasDerivAt (fun A => energy B c1 c2 kappa v (v + 5 / 2) A) ((2 * v + 5) * RWC1 A B c1 c2 v / (4 * B * A ^ 3)) A := by
  refine (energy_deriv_const kappa hB v (v + 5 / 2) hA).congr_deriv ?_
  have : (v + 5 / 2 - 1 : ℝ) = v + 3 / 2 := by ring
  have hv : (v + 3 / 2 : ℝ) ≠ 0 := by positivity
  rw [this, pow_two (v + 3 / 2 : ℝ), mul_div_assoc, div_self hv, mul_one]
  unfold RWC1
  rw [Int.cast_natCast]
  field_simp
  ring

/-- C68, any seniority, `c1 ≥ 0`: `RWC1` vanishes exactly where the energy is stationary. -/
theorem C68_seniority_nonneg {B c1 c2 : ℝ} (kappa : ℝ) (hB : B ≠ 0) (h1 : 0 ≤ c1) (h2 : 0 < c2) (v : ℕ) {A : ℝ} (hA : 0 < A) :
    DifferentiableAt ℝ (fun A => energy B c1 c2 kappa v (lamOf c1 c2 v A) A) A ∧
      (deriv (fun A => energy B c1 c2 kappa v (lamOf c1 c2 v A) A) A = 0 ↔ RWC1 A B c1 c2 v = 0) := by
  simp only [lamOf_nonneg h1 h2]
  have h := energy_deriv_nonneg (c1 := c1) (c2 := c2) kappa hB v hA.ne'
  refine ⟨h.differentiableAt, ?_⟩
  rw [h.deriv, div_eq_zero_iff, mul_eq_zero]
  have k1 : 4 * B * A ^ 3 ≠ 0 := by positivity
  have k2 : (2 * v + 5 : ℝ) ≠ 0 := by positivity
  rw [or_iff_left k1, or_iff_right k2]

/-- The chain rule for `A = a^2`. -/
theorem deriv_sq {f : ℝ → ℝ} {a : ℝ} (ha : 0 < a) (hf : DifferentiableAt ℝ f (a ^ 2)) :
    DifferentiableAt ℝ (fun a => f (a ^ 2)) a ∧ (deriv (fun a => f (a ^ 2)) a = 0 ↔ deriv f (a ^ 2) = 0) := by
  have h : HasDerivAt (fun a => f (a ^ 2)) (deriv f (a ^ 2) * (2 * a)) a := by
    have h2 : HasDerivAt (fun a : ℝ => a ^ 2) (2 * a) a := by simpa using hasDerivAt_pow 2 a
    exact HasDerivAt.comp (h₂ := f) (h := fun a : ℝ => a ^ 2) a hf.hasDerivAt h2
  refine ⟨h.differentiableAt, ?_⟩
  rw [h.deriv, mul_eq_zero]
  exact or_iff_left (by positivity)

/-- C68: `RWC_expt_link`, as a function of `anorm`, is stationary exactly where `RWC2` vanishes (`c1 < 0`) or `RWC1`
vanishes (`c1 ≥ 0`). -/
theorem C68_link {B c1 c2 : ℝ} (kappa : ℝ) (hB : B ≠ 0) (h2 : 0 < c2) :
    ∃ f : ℝ → ℝ, (∀ a, a ≠ 0 → RWC_expt_link B c1 c2 kappa a = .ok (f a)) ∧ ∀ a, 0 < a → DifferentiableAt ℝ f a ∧
      (c1 < 0 → (deriv f a = 0 ↔ RWC2 (a ^ 2) (muf (a ^ 2) c1 c2 0) B c1 c2 0 = 0)) ∧
      (0 ≤ c1 → (deriv f a = 0 ↔ RWC1 (a ^ 2) B c1 c2 0 = 0)) := by
  refine ⟨fun a => energy B c1 c2 kappa 0 (lamOf c1 c2 0 (a ^ 2)) (a ^ 2), fun a ha => RWC_expt_link_eq hB h2 ha,
    fun a ha => ?_⟩
  have hA : 0 < a ^ 2 := by positivity
  by_cases h1 : c1 < 0
  · obtain ⟨k1, k2⟩ := C68_seniority_neg kappa hB h1 h2 0 hA
    obtain ⟨k3, k4⟩ := deriv_sq (f := fun A => energy B c1 c2 kappa 0 (lamOf c1 c2 0 A) A) ha k1
    exact ⟨k3, fun _ => k4.trans k2, fun h => absurd h1 (not_lt.2 h)⟩
  · obtain ⟨k1, k2⟩ := C68_seniority_nonneg kappa hB (not_lt.1 h1) h2 0 hA
    obtain ⟨k3, k4⟩ := deriv_sq (f := fun A => energy B c1 c2 kappa 0 (lamOf c1 c2 0 A) A) ha k1
    exact ⟨k3, fun h => absurd h h1, fun _ => k4.trans k2⟩

example : (0 : ℝ) < 1.5 ∧ (50 : ℝ) ≠ 0 := by norm_num

/-! ## C74 -/

/-- A function on the positive numbers whose derivative is negative before `A0` and positive after it. -/
theorem min_of_sign {f f' : ℝ → ℝ} {A0 : ℝ} (h0 : 0 < A0) (hd : ∀ A, 0 < A → HasDerivAt f (f' A) A)
    (h1 : ∀ A, 0 < A → A < A0 → f' A < 0) (h2 : ∀ A, A0 < A → 0 < f' A) {A : ℝ} (hA : 0 < A) (hne : A ≠ A0) : f A0 < f A := by
  rcases lt_or_gt_of_ne hne with h | h
  · have : StrictAntiOn f (Set.Icc A A0) := by
      refine strictAntiOn_of_deriv_neg (convex_Icc _ _)
        (fun x hx => (hd x (hA.trans_le hx.1)).continuousAt.continuousWithinAt) ?_
      rw [interior_Icc]
      intro x hx
      rw [(hd x (hA.trans hx.1)).deriv]
      exact h1 x (hA.trans hx.1) hx.2
    exact this ⟨le_rfl, h.le⟩ ⟨h.le, le_rfl⟩ h
  · have : StrictMonoOn f (Set.Icc A0 A) := by
      refine strictMonoOn_of_deriv_pos (convex_Icc _ _)
        (fun x hx => (hd x (h0.trans_le hx.1)).continuousAt.continuousWithinAt) ?_
      rw [interior_Icc]
      intro x hx
      rw [(hd x (h0.trans hx.1)).deriv]
      exact h2 x hx.1
    exact this ⟨le_rfl, h.le⟩ ⟨h.le, le_rfl⟩ h

/-- C74, `c1 < 0`, any seniority: if `RWC_alam` returns `(a, lambda)` then `lambda` is the one that suits `a`, and among
all pairs that suit each other this one alone has the least energy. -/
theorem C74_neg_partial {sv : Solver} (hsv : SolverOk sv) {B c1 c2 : ℝ} (kappa : ℝ) (hB : 0 < B) (h1 : c1 < 0) (h2 : 0 < c2)
    (v : ℕ) {fuel : ℕ} {a lam : ℝ} (h : RWC_alam sv fuel B c1 c2 v = some (.ok (a, lam))) :
    0 < a ∧ lam = lamOf c1 c2 v (a ^ 2) ∧
      ∀ b, 0 < b → b ≠ a → energy B c1 c2 kappa v lam (a ^ 2) < energy B c1 c2 kappa v (lamOf c1 c2 v (b ^ 2)) (b ^ 2) := by
  have hv : (0 : Int) ≤ v := by positivity
  have h0 := (C67_start (c1 := c1) hB.ne' h2 hv).2
  obtain ⟨A, hA, hz, ha, hl⟩ : ∃ A, 0 < A ∧ F2 B c1 c2 v A = 0 ∧ a = Real.sqrt A ∧ lam = 1 + muf A c1 c2 v / 2 := by
    unfold RWC_alam RWC_alam_neg at h
    rw [if_neg (by omega), if_neg (by linarith), if_neg (by linarith), if_neg (not_not.2 h0)] at h
    cases hb : bracketLoop (F2 B c1 c2 v) fuel 1 with
    | none => rw [hb] at h; cases h
    | some A_pos =>
      rw [hb] at h
      simp only at h
      obtain ⟨n, hn⟩ := F2_power (B := B) h1 h2 hv
      obtain ⟨k, k1, k2, k3⟩ := bracketLoop_stops (F := F2 B c1 c2 v) n 1 (by rw [one_mul]; exact hn)
      have hpos : 0 < A_pos ∧ 0 < F2 B c1 c2 v A_pos := by
        have : ∀ (m : ℕ) (x y : ℝ), 0 < x → bracketLoop (F2 B c1 c2 v) m x = some y → 0 < y ∧ 0 < F2 B c1 c2 v y := by
          intro m
          induction m with
          | zero => intro x y _ hh; cases hh
          | succ m ih =>
            intro x y hx hh
            rw [bracketLoop] at hh
            split_ifs at hh with hc
            · exact ih _ _ (by positivity) hh
            · injection hh with hh
              subst hh
              exact ⟨hx, not_le.1 hc⟩
        exact this fuel 1 A_pos one_pos hb
      cases hr : sv.root_scalar (F2 B c1 c2 v) 0 A_pos with
      | none => rw [hr] at h; cases h
      | some A =>
        rw [hr] at h
        injection h with h
        injection h with h
        injection h with e1 e2
        obtain ⟨q1, _, q3⟩ := hsv.root_scalar _ _ _ _ (F2_cont B c1 c2 hv) hpos.1 h0 hpos.2 hr
        refine ⟨A, lt_of_le_of_ne q1 fun hh => ?_, q3, e1.symm, e2.symm⟩
        rw [← hh] at q3
        exact h0.ne q3
  have hsq : a ^ 2 = A := by rw [ha, Real.sq_sqrt hA.le]
  have hapos : 0 < a := by rw [ha]; exact Real.sqrt_pos.2 hA
  refine ⟨hapos, by rw [hsq, hl, lamOf_neg h1 h2], fun b hb hne => ?_⟩
  rw [show lam = lamOf c1 c2 v (a ^ 2) by rw [hsq, hl, lamOf_neg h1 h2], hsq]
  have hm : ∀ A, 0 < muf A c1 c2 v := fun A => by rw [muf_eq]; exact rootV_pos (vshftf_pos hv) _
  obtain ⟨s1, s2⟩ := F2_sign h1 h2 hv hA hz
  refine min_of_sign (f := fun A => energy B c1 c2 kappa v (lamOf c1 c2 v A) A) hA
    (fun A hA => energy_deriv_neg kappa hB.ne' h1 h2 v hA.ne') (fun x hx hlt => ?_) (fun x hlt => ?_)
    (by positivity) fun hh => hne ?_
  · have := hm x
    exact div_neg_of_neg_of_pos (s1 x hx hlt) (by positivity)
  · have := hm x
    have := hA.trans hlt
    exact div_pos (s2 x hlt) (by positivity)
  · rw [← hsq] at hh
    exact (pow_left_inj₀ hb.le hapos.le two_ne_zero).1 hh

/-- C74, `c1 ≥ 0`, seniority 0. -/
theorem C74_nonneg_partial {sv : Solver} (hsv : SolverOk sv) {B c1 c2 : ℝ} (kappa : ℝ) (hB : 0 < B) (h1 : 0 ≤ c1) (h2 : 0 < c2)
    {fuel : ℕ} {a lam : ℝ} (h : RWC_alam sv fuel B c1 c2 0 = some (.ok (a, lam))) :
    0 < a ∧ lam = lamOf c1 c2 0 (a ^ 2) ∧
      ∀ b, 0 < b → b ≠ a → energy B c1 c2 kappa 0 lam (a ^ 2) < energy B c1 c2 kappa 0 (lamOf c1 c2 0 (b ^ 2)) (b ^ 2) := by
  unfold RWC_alam at h
  rw [if_neg (by omega), if_pos h1] at h
  injection h with h
  obtain ⟨A, hA, hz, e⟩ := C67_clam hsv (c1 := c1) hB.ne' h2 (v := 0) le_rfl
  rw [h] at e
  injection e with e
  injection e with ha hl
  have hsq : a ^ 2 = A := by rw [ha, Real.sq_sqrt hA.le]
  have hapos : 0 < a := by rw [ha]; exact Real.sqrt_pos.2 hA
  have hl' : lam = (0 : ℕ) + 5 / 2 := by rw [hl]; norm_num
  simp only [lamOf_nonneg h1 h2]
  refine ⟨hapos, hl', fun b hb hne => ?_⟩
  rw [hl', hsq]
  obtain ⟨s1, s2⟩ := RWC1_sign hB.ne' h2 le_rfl hA hz
  refine min_of_sign (f := fun A => energy B c1 c2 kappa 0 ((0 : ℕ) + 5 / 2) A) hA
    (fun A hA => energy_deriv_nonneg kappa hB.ne' 0 hA.ne') (fun x hx hlt => ?_) (fun x hlt => ?_)
    (by positivity) fun hh => hne ?_
  · refine div_neg_of_neg_of_pos (mul_neg_of_pos_of_neg (by positivity) ?_) (by positivity)
    exact s1 x hx hlt
  · have := hA.trans hlt
    refine div_pos (mul_pos (by positivity) ?_) (by positivity)
    exact s2 x hlt
  · rw [← hsq] at hh
    exact (pow_left_inj₀ hb.le hapos.le two_ne_zero).1 hh

/-- C74, in terms of `RWC_expt_link`: the parameters returned for seniority 0 minimise it. -/
theorem C74_link_partial {sv : Solver} (hsv : SolverOk sv) {B c1 c2 : ℝ} (kappa : ℝ) (hB : 0 < B) (h2 : 0 < c2) {fuel : ℕ} {a lam : ℝ}
    (h : RWC_alam sv fuel B c1 c2 0 = some (.ok (a, lam))) :
    lam = RWC_dav c1 c2 a 0 ∧ ∃ e, RWC_expt_link B c1 c2 kappa a = .ok e ∧ RWC_expt B c1 c2 kappa a lam = .ok e ∧
      ∀ b, b ≠ 0 → ∃ e', RWC_expt_link B c1 c2 kappa b = .ok e' ∧ e ≤ e' := by
  have key : 0 < a ∧ lam = lamOf c1 c2 0 (a ^ 2) ∧
      ∀ b, 0 < b → b ≠ a → energy B c1 c2 kappa 0 lam (a ^ 2) < energy B c1 c2 kappa 0 (lamOf c1 c2 0 (b ^ 2)) (b ^ 2) := by
    rcases lt_or_ge c1 0 with h1 | h1
    · exact C74_neg_partial hsv kappa hB h1 h2 0 h
    · exact C74_nonneg_partial hsv kappa hB h1 h2 h
  obtain ⟨ha, hl, hmin⟩ := key
  have e0 := RWC_dav_eq (c1 := c1) h2 0 a
  rw [Nat.cast_zero] at e0
  refine ⟨hl.trans e0.symm, _, RWC_expt_link_eq hB.ne' h2 ha.ne', ?_, fun b hb => ⟨_, RWC_expt_link_eq hB.ne' h2 hb, ?_⟩⟩
  · rw [RWC_expt_eq hB.ne' ha.ne' (by rw [hl]; exact (lamOf_gt _ _ _ _).ne'), hl]
  · rw [hl] at hmin
    by_cases hba : |b| = a
    · rw [← hba, sq_abs]
    · have := hmin |b| (abs_pos.2 hb) hba
      rw [sq_abs] at this
      exact this.le

/-- C74 fails for `c1 ≥ 0` and seniority `v > 0`: the equation solved is that for `lambda = v + 5/2`, but
the value returned is `lambda = 2.5` (line 323), which does not suit `a`; nor is the energy for `lambda = 2.5` stationary
there. -/
theorem C74_fails {sv : Solver} (hsv : SolverOk sv) {B c1 c2 : ℝ} (kappa : ℝ) (hB : 0 < B) (h1 : 0 ≤ c1) (h2 : 0 < c2)
    {v : ℕ} (hv : 0 < v) (fuel : ℕ) :
    ∃ a, 0 < a ∧ RWC_alam sv fuel B c1 c2 v = some (.ok (a, 2.5)) ∧ (2.5 : ℝ) ≠ lamOf c1 c2 v (a ^ 2) ∧
      (2.5 : ℝ) ≠ RWC_dav c1 c2 a v ∧ deriv (fun A => energy B c1 c2 kappa v 2.5 A) (a ^ 2) ≠ 0 := by
  obtain ⟨A, hA, hz, e⟩ := C67_clam hsv (c1 := c1) hB.ne' h2 (v := v) (by positivity)
  have hv1 : (1 : ℝ) ≤ v := by exact_mod_cast hv
  have hne : (2.5 : ℝ) ≠ v + 5 / 2 := by
    intro hh
    norm_num at hh
    linarith
  refine ⟨Real.sqrt A, Real.sqrt_pos.2 hA, ?_, ?_, ?_, ?_⟩
  · unfold RWC_alam
    rw [if_neg (by omega), if_pos h1, e]
  · rw [lamOf_nonneg h1 h2]; exact hne
  · rw [RWC_dav_eq h2, lamOf_nonneg h1 h2]; exact hne
  · rw [Real.sq_sqrt hA.le, (energy_deriv_const kappa hB.ne' v 2.5 hA.ne').deriv, Ne, div_eq_zero_iff]
    push Not
    refine ⟨?_, by positivity⟩
    unfold RWC1 at hz
    rw [Int.cast_natCast] at hz
    have e3 : A ^ 3 = B ^ 2 * c1 * A + (2 * v + 7) * B ^ 2 * c2 := by linarith
    rw [e3]
    have k1 : 0 ≤ B ^ 2 * c1 * A := by positivity
    have k2 : 0 < B ^ 2 * c2 := by positivity
    have hw : (5 / 2 : ℝ) < 1 + (v + 3 / 2) ^ 2 / (2.5 - 1) := by
      have : ((5 / 2 : ℝ)) ^ 2 ≤ (v + 3 / 2) ^ 2 := by gcongr; linarith
      norm_num at this ⊢
      linarith
    generalize 1 + (v + 3 / 2 : ℝ) ^ 2 / (2.5 - 1) = w at *
    have k3 : 0 ≤ (w - 5 / 2) * (B ^ 2 * c1 * A) := mul_nonneg (by linarith) k1
    have k4 : 0 < (w * (2 * v + 7) - 35 / 2) * (B ^ 2 * c2) := by
      refine mul_pos ?_ k2
      nlinarith
    intro hh
    norm_num at hh
    linarith

/-- The hypotheses of C74 are met: a call of `RWC_alam` that succeeds. -/
theorem alam_meets : ∃ sv fuel a lam, SolverOk sv ∧ RWC_alam sv fuel 50 (-2) 1.5 0 = some (.ok (a, lam)) := by
  obtain ⟨sv, hsv, hc⟩ := solver_exists
  obtain ⟨A_pos, ⟨k, hk⟩, hp, h0, hpos, _⟩ := C67_bracket (B := 50) (c1 := -2) (c2 := 1.5) (by norm_num) (by norm_num) (by norm_num)
    (v := 0) le_rfl
  obtain ⟨r, hr⟩ := hc _ _ _ (F2_cont 50 (-2) 1.5 (v := 0) le_rfl) hp h0 hpos
  refine ⟨sv, k + 1, Real.sqrt r, 1 + muf r (-2) 1.5 0 / 2, hsv, ?_⟩
  unfold RWC_alam RWC_alam_neg
  rw [if_neg (by omega), if_neg (by norm_num), if_neg (by norm_num), if_neg (not_not.2 h0), hk _ (by omega)]
  simp only [hr]
  rfl

/-- The hypotheses of C74 are met. -/
example : ∃ sv fuel a lam, SolverOk sv ∧ RWC_alam sv fuel 50 (-2) 1.5 0 = some (.ok (a, lam)) := alam_meets

end Acm.Props
