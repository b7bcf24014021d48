import Verif.Lemmas.RadialProd

/-! Which products `RepRadial_Prod` accepts. -/

set_option linter.unusedSectionVars false

namespace Acm
open Spec

section
variable {F : Type} [Field F] [LinearOrder F] [IsStrictOrderedRing F]

theorem loop_err (lam : F) : ∀ (ops : List KTSOp) (shfs : List Int), shfs.length = ops.length → 0 < lam →
    (¬ SZero ops shfs ∨ ∃ j, lam + (sufSum shfs j : F) ≤ 0) →
    ∃ e, RepRadialshfs_loop (formal F) lam ops shfs = .error e := by
  intro ops
  induction ops with
  | nil =>
    intro shfs hl h0 h
    have : shfs = [] := List.eq_nil_of_length_eq_zero hl
    subst this
    rcases h with h | ⟨j, h⟩
    · exact absurd ⟨rfl, fun i hi => absurd hi (Nat.not_lt_zero i)⟩ h
    · have : sufSum [] j = 0 := by simp [sufSum]
      rw [this, Int.cast_zero, add_zero] at h
      exact absurd h0 (not_lt.2 h)
  | cons op ops ih =>
    intro shfs hl h0 h
    match shfs, hl, h with
    | [], hl, _ => simp at hl
    | R :: shfs, hl, h =>
      have hl' : shfs.length = ops.length := by simpa using hl
      simp only [RepRadialshfs_loop]
      by_cases hc : ¬ SZero ops shfs ∨ ∃ j, lam + (sufSum shfs j : F) ≤ 0
      · obtain ⟨e, he⟩ := ih shfs hl' h0 hc
        rw [he]
        exact ⟨e, rfl⟩
      · rw [not_or, not_not, not_exists] at hc
        obtain ⟨hz, hpos⟩ := hc
        cases hr : RepRadialshfs_loop (formal F) lam ops shfs with
        | error e => exact ⟨e, rfl⟩
        | ok r =>
          obtain ⟨lam', P⟩ := r
          simp only [py_bind_ok]
          suffices h : ∃ e, op.representation (formal F) lam' R = .error e by
            obtain ⟨e, he⟩ := h
            rw [he]
            exact ⟨e, rfl⟩
          have hlam : lam' = lam + (shfs.sum : F) := loop_lam lam ops shfs lam' P hl'.symm hr
          have hp1 := hpos 0
          rw [sufSum_zero, not_le] at hp1
          by_cases hS : op.isKT = false ∧ R ≠ 0
          · cases op with
            | KT K T => exact absurd hS.1 (by simp [KTSOp.isKT])
            | S s =>
              simp only [KTSOp.representation]
              rw [if_pos hS.2]
              exact ⟨_, rfl⟩
          · have hz' : SZero (op :: ops) (R :: shfs) := by
              refine ⟨hl, ?_⟩
              intro i hi hk
              cases i with
              | zero =>
                by_contra hR
                exact hS ⟨by simpa using hk, by simpa using hR⟩
              | succ i =>
                simp only [List.length_cons] at hi
                simpa using hz.2 i (by omega) (by simpa using hk)
            rcases h with h | ⟨j, hj⟩
            · exact absurd hz' h
            · cases j with
              | succ j => exact absurd hj (by simpa [sufSum] using hpos j)
              | zero =>
                rw [sufSum_zero, List.sum_cons] at hj
                push_cast at hj
                have hR : R ≠ 0 := by
                  rintro rfl
                  rw [Int.cast_zero, zero_add] at hj
                  exact absurd hp1 (not_lt.2 hj)
                cases op with
                | S s => exact absurd ⟨rfl, hR⟩ hS
                | KT K T =>
                  simp only [KTSOp.representation]
                  refine ⟨_, bS_DS_err _ _ _ _ _ ?_⟩
                  rintro ⟨_, h2⟩
                  rw [hlam] at h2
                  linarith
where
  loop_lam (lam : F) : ∀ (ops : List KTSOp) (shfs : List Int) (lam' : F)
    (P : Option (FormalProd F)), ops.length = shfs.length →
    RepRadialshfs_loop (formal F) lam ops shfs = .ok (lam', P) → lam' = lam + (shfs.sum : F) := by
    intro ops
    induction ops with
    | nil =>
      intro shfs lam' P hl h
      have : shfs = [] := List.eq_nil_of_length_eq_zero hl.symm
      subst this
      simp only [RepRadialshfs_loop, py_pure] at h
      injection h with h
      injection h with h1 h2
      simp [← h1]
    | cons op ops ih =>
      intro shfs lam' P hl h
      match shfs with
      | [] => simp at hl
      | R :: shfs =>
        simp only [RepRadialshfs_loop] at h
        cases hr : RepRadialshfs_loop (formal F) lam ops shfs with
        | error e => rw [hr] at h; simp at h
        | ok r =>
          obtain ⟨lam1, P1⟩ := r
          rw [hr] at h
          simp only [py_bind_ok] at h
          have g1 := ih shfs lam1 P1 (by simpa using hl) hr
          cases hm : op.representation (formal F) lam1 R with
          | error e => rw [hm] at h; simp at h
          | ok p =>
            rw [hm] at h
            simp only [py_bind_ok, py_pure] at h
            injection h with h
            injection h with h1 h2
            rw [← h1, g1, List.sum_cons]; push_cast; ring

/-- The product is formed exactly if the generators get no shift and all lambdas are positive. -/
theorem shfs_iff (lam : F) (ops : List KTSOp) (shfs : List Int) (hl : shfs.length = ops.length)
    (hv : ∀ op ∈ ops, op.Valid) (h0 : 0 < lam) :
    (∃ p, RepRadialshfs_Prod (formal F) ops lam shfs = .ok p) ↔ SZero ops shfs ∧ ∀ j, 0 < lam + (sufSum shfs j : F) := by
  constructor
  · rintro ⟨p, hp⟩
    by_contra hc
    have : ¬ SZero ops shfs ∨ ∃ j, lam + (sufSum shfs j : F) ≤ 0 := by
      by_contra h
      rw [not_or, not_not, not_exists] at h
      exact hc ⟨h.1, fun j => not_le.1 (h.2 j)⟩
    obtain ⟨e, he⟩ := loop_err lam ops shfs hl h0 this
    unfold RepRadialshfs_Prod at hp
    rw [he] at hp
    cases hp
  · rintro ⟨hz, hpos⟩
    obtain ⟨P, e⟩ := shfs_total lam ops shfs hv hz hpos
    unfold RepRadialshfs_Prod
    rw [e]
    cases P <;> exact ⟨_, rfl⟩

end

/-! ### too many odd monomials for the shift -/

theorem flip_exact (rem : Int) : ∀ (xs : List Int) (oc : Int),
    (∀ x ∈ xs, x = 0 ∨ x = 1) → oc - 2 * xs.sum ≤ rem → rem ≤ oc →
    ∃ p q, lambdaFlip rem xs oc = p ++ q ∧ (∀ x ∈ p, x ≤ 0) ∧ (∀ x ∈ q, 0 ≤ x) ∧ q.sum = xs.sum - (oc - rem + 1) / 2 ∧
      (rem < oc → ∀ j, indexOfOne xs = some j → j < p.length) := by
  intro xs
  induction xs with
  | nil =>
    intro oc _ h1 h2
    simp only [List.sum_nil] at h1
    exact ⟨[], [], rfl, by simp, by simp, by simp only [List.sum_nil]; omega, fun _ j hj => by simp [indexOfOne] at hj⟩
  | cons x xs ih =>
    intro oc hxs h1 h2
    have hx := hxs x (by simp)
    have hxs' : ∀ y ∈ xs, y = 0 ∨ y = 1 := fun y hy => hxs y (by simp [hy])
    simp only [List.sum_cons] at h1
    simp only [lambdaFlip]
    by_cases c : rem ≥ oc
    · rw [if_pos c]
      refine ⟨[], x :: xs, rfl, by simp, fun y hy => by have := hxs y hy; omega, by omega, fun h => by omega⟩
    rw [if_neg c]
    by_cases c2 : x = 1
    · subst c2
      rw [if_pos rfl]
      by_cases c3 : rem ≤ oc - 2
      · obtain ⟨p, q, k1, k2, k3, k4, k5⟩ := ih (oc - 2) hxs' (by omega) c3
        refine ⟨-1 :: p, q, by rw [k1]; rfl, ?_, k3, by simp only [List.sum_cons]; omega, ?_⟩
        · intro y hy
          rcases List.mem_cons.1 hy with rfl | hy
          · omega
          · exact k2 y hy
        · intro _ j hj
          simp [indexOfOne] at hj
          subst hj
          simp
      · have : lambdaFlip rem xs (oc - 2) = xs := by
          cases xs with
          | nil => rfl
          | cons y ys => rw [lambdaFlip, if_pos (by omega)]
        rw [this]
        refine ⟨[-1], xs, rfl, by simp, fun y hy => by have := hxs' y hy; omega, by simp only [List.sum_cons]; omega, ?_⟩
        intro _ j hj
        simp [indexOfOne] at hj
        subst hj
        simp
    · rw [if_neg c2]
      have hx0 : x = 0 := by omega
      subst hx0
      obtain ⟨p, q, k1, k2, k3, k4, k5⟩ := ih oc hxs' (by omega) h2
      refine ⟨0 :: p, q, by rw [k1]; rfl, ?_, k3, by simp only [List.sum_cons]; omega, ?_⟩
      · intro y hy
        rcases List.mem_cons.1 hy with rfl | hy
        · omega
        · exact k2 y hy
      · intro hr j hj
        simp only [indexOfOne, if_neg c2] at hj
        cases hk : indexOfOne xs with
        | none => rw [hk] at hj; simp at hj
        | some k =>
          rw [hk] at hj
          simp at hj
          subst hj
          have := k5 hr k hk
          simp only [List.length_cons]; omega

/-- The largest sum from some position on. -/
theorem negPos_top {p q : List Int} (hp : ∀ x ∈ p, x ≤ 0) (hq : ∀ x ∈ q, 0 ≤ x) :
    (∀ j, sufSum (p ++ q) j ≤ q.sum) ∧ sufSum (p ++ q) p.length = q.sum := by
  constructor
  · intro j
    unfold sufSum
    rw [List.drop_append, List.sum_append]
    have h1 : (p.drop j).sum ≤ 0 := list_sum_nonpos _ fun x hx => hp x (List.mem_of_mem_drop hx)
    have h2 := sufSum_le_sum q (j - p.length) hq
    unfold sufSum at h2
    omega
  · unfold sufSum
    rw [List.drop_append_of_le_length le_rfl, List.drop_length, List.nil_append]

theorem flip_list (ops : List KTSOp) (lv : Int) (h : |lv| < oddCount ops) :
    ∃ p q, lambdaAbsList ops lv (ops.map KTSOp.maxVar) ((ops.map KTSOp.maxVar).map fun m => m % 2) = .ok (p ++ q) ∧
      (∀ x ∈ p, x ≤ 0) ∧ (∀ x ∈ q, 0 ≤ x) ∧ q.sum = (oddCount ops + |lv|) / 2 ∧ (p ++ q).length = ops.length := by
  have hocE : oddCount ops = ((ops.map KTSOp.maxVar).map fun m => m % 2).sum := by
    simp [oddCount, Function.comp_def]
  have h01 : ∀ x ∈ (ops.map KTSOp.maxVar).map fun m => m % 2, x = 0 ∨ x = 1 := fun x hx => mem_oddVars hx
  have hlen : ((ops.map KTSOp.maxVar).map fun m => m % 2).length = ops.length := by simp
  rw [hocE] at h ⊢
  unfold lambdaAbsList
  generalize (ops.map KTSOp.maxVar).map (fun m => m % 2) = os at *
  have h0 := abs_nonneg lv
  obtain ⟨p, q, k1, k2, k3, k4, k5⟩ := flip_exact |lv| os os.sum h01 (by omega) (by omega)
  have hpq : (p ++ q).length = ops.length := by
    rw [← k1, (flip_spec |lv| os os.sum h01 (by omega)).1.1, hlen]
  simp only [if_pos h]
  have k4' : q.sum = (os.sum + |lv|) / 2 := by omega
  unfold oddinOf
  by_cases c : is_odd (|lv| - (ops.map KTSOp.maxVar).sum) = true
  · rw [if_pos c]
    cases hj : indexOfOne os with
    | none => exact ⟨p, q, by rw [if_neg (by simp), k1]; rfl, k2, k3, k4', hpq⟩
    | some j =>
      have hjp := k5 h j hj
      refine ⟨p.set j 0, q, ?_, ?_, k3, k4', by simpa using hpq⟩
      · simp only
        rw [if_pos (by omega), k1, pySet_nat _ _ j (by omega) (by simp; omega), List.set_append_left _ _ hjp]
      · intro x hx
        rcases List.mem_or_eq_of_mem_set hx with hx | rfl
        · exact k2 x hx
        · omega
  · exact ⟨p, q, by rw [if_neg c, if_neg (by simp), k1]; rfl, k2, k3, k4', hpq⟩

/-! ### an odd rest for an even product -/

theorem fill_even : ∀ (ms : List Int) (i0 rem last : Int), (∀ m ∈ ms, 0 ≤ m ∧ m % 2 = 0) → 0 < rem → rem % 2 = 1 → rem < ms.sum →
    ∃ pre m post, ms = pre ++ m :: post ∧ pre.sum < rem ∧ rem < pre.sum + m ∧
      lambdaFill (ms.map fun m => (m, 0)) i0 rem last = .ok (pre ++ (rem + 1 - pre.sum) :: post.map (fun _ => 0), -1,
        if post = [] then i0 + pre.length else i0 + pre.length + 1) := by
  intro ms
  induction ms with
  | nil => intro i0 rem last _ h0 _ h; simp at h; omega
  | cons m ms ih =>
    intro i0 rem last hm h0 h1 h2
    obtain ⟨hm0, hm2⟩ := hm m (by simp)
    have hm' : ∀ m ∈ ms, 0 ≤ m ∧ m % 2 = 0 := fun y hy => hm y (by simp [hy])
    simp only [List.sum_cons] at h2
    simp only [List.map_cons, lambdaFill]
    rw [if_neg (by omega), iquo_ok (by omega) (by omega)]
    simp only [py_bind_ok]
    by_cases c : rem < m
    · refine ⟨[], m, ms, rfl, by simpa using h0, by simpa using c, ?_⟩
      have e : 2 * (min (rem + 1) (m - 0) / 2) = rem + 1 := by omega
      rw [e]
      have e2 : rem - (rem + 1) = -1 := by omega
      rw [e2]
      cases ms with
      | nil => simp [lambdaFill]
      | cons y ys =>
        simp only [List.map_cons, lambdaFill]
        rw [if_pos (by omega)]
        simp [Function.comp_def]
    · have e : 2 * (min (rem + 1) (m - 0) / 2) = m := by omega
      rw [e]
      obtain ⟨pre, m', post, k1, k2, k3, k4⟩ := ih (i0 + 1) (rem - m) i0 hm' (by omega) (by omega) (by omega)
      rw [k4]
      refine ⟨m :: pre, m', post, by rw [k1]; rfl, by simp only [List.sum_cons]; omega, by simp only [List.sum_cons]; omega, ?_⟩
      simp only [py_bind_ok, py_pure, List.sum_cons, List.length_cons, List.cons_append]
      have e3 : rem - m + 1 - pre.sum = rem + 1 - (m + pre.sum) := by omega
      rw [e3, zero_add]
      congr 3
      split_ifs <;> push_cast <;> omega


/-- Where the rest falls is determined. -/
theorem split_unique (d : KTSOp → Int) : ∀ (pre pre' : List KTSOp) (op op' : KTSOp) (post post' : List KTSOp) (r : Int),
    (∀ o ∈ pre ++ op :: post, 0 ≤ d o) → pre ++ op :: post = pre' ++ op' :: post' → (pre.map d).sum < r → r < (pre.map d).sum + d op →
    (pre'.map d).sum < r → r < (pre'.map d).sum + d op' → pre = pre' ∧ op = op' ∧ post = post' := by
  intro pre
  induction pre with
  | nil =>
    intro pre' op op' post post' r h0 h a b a' b'
    cases pre' with
    | nil => simp at h; exact ⟨rfl, h.1, h.2⟩
    | cons x xs =>
      exfalso
      simp only [List.nil_append, List.cons_append, List.cons.injEq] at h
      obtain ⟨rfl, rfl⟩ := h
      have : 0 ≤ (xs.map d).sum := list_sum_nonneg _ fun y hy => by
        obtain ⟨o, ho, rfl⟩ := List.mem_map.1 hy
        exact h0 o (by simp [ho])
      simp only [List.map_cons, List.sum_cons, List.map_nil, List.sum_nil] at a b a' b'
      omega
  | cons x xs ih =>
    intro pre' op op' post post' r h0 h a b a' b'
    cases pre' with
    | nil =>
      exfalso
      simp only [List.nil_append, List.cons_append, List.cons.injEq] at h
      obtain ⟨rfl, h⟩ := h
      have : 0 ≤ (xs.map d).sum := list_sum_nonneg _ fun y hy => by
        obtain ⟨o, ho, rfl⟩ := List.mem_map.1 hy
        exact h0 o (by simp [ho])
      simp only [List.map_cons, List.sum_cons, List.map_nil, List.sum_nil] at a b a' b'
      omega
    | cons y ys =>
      simp only [List.cons_append, List.cons.injEq] at h
      obtain ⟨rfl, h⟩ := h
      simp only [List.map_cons, List.sum_cons] at a b a' b'
      obtain ⟨k1, k2, k3⟩ := ih ys op op' post post' (r - d x) (fun o ho => h0 o (by simp at ho ⊢; tauto)) h
        (by omega) (by omega) (by omega) (by omega)
      exact ⟨by rw [k1], k2, k3⟩

/-- The shifts that an even product gets for an odd shift smaller than its degree. -/
def leakShifts (pre : List KTSOp) (r : Int) (post : List KTSOp) : List Int :=
  pre.map KTSOp.maxVar ++ match post with
    | [] => [r - (pre.map KTSOp.maxVar).sum]
    | _ :: post => (r + 1 - (pre.map KTSOp.maxVar).sum) :: -1 :: post.map fun _ => 0

theorem leak_list (ops : List KTSOp) (lv : Int) (hv : ∀ op ∈ ops, op.Valid) (h : ¬ NoLeak ops lv) :
    ∃ pre op post, ops = pre ++ op :: post ∧ (pre.map KTSOp.maxVar).sum < |lv| ∧ |lv| < (pre.map KTSOp.maxVar).sum + op.maxVar ∧
      lambdaAbsList ops lv (ops.map KTSOp.maxVar) ((ops.map KTSOp.maxVar).map fun m => m % 2) = .ok (leakShifts pre |lv| post) := by
  unfold NoLeak at h
  push Not at h
  obtain ⟨h1, h2, h3⟩ := h
  have hm : ∀ m ∈ ops.map KTSOp.maxVar, 0 ≤ m ∧ m % 2 = 0 := by
    intro m hm
    obtain ⟨op, ho, rfl⟩ := List.mem_map.1 hm
    have := h1 op ho
    exact ⟨maxVar_nonneg (hv op ho), by omega⟩
  have hz : (ops.map KTSOp.maxVar).map (fun m => m % 2) = (ops.map KTSOp.maxVar).map fun _ => 0 :=
    List.map_congr_left fun m hm' => (hm m hm').2
  have hms : maxCount ops = (ops.map KTSOp.maxVar).sum := rfl
  have heven : (ops.map KTSOp.maxVar).sum % 2 = 0 := by
    rw [← sum_mod_two, hz]
    simp [Function.comp_def]
  rw [hms] at h2 h3
  have hr : |lv| % 2 = 1 := by
    rcases abs_cases lv with ⟨e, _⟩ | ⟨e, _⟩ <;> omega
  have h0 := abs_nonneg lv
  obtain ⟨pre, m, post, k1, k2, k3, k4⟩ := fill_even (ops.map KTSOp.maxVar) 0 |lv| 0 hm (by omega) hr h3
  obtain ⟨pre', rest, e1, e2, e3⟩ := List.map_eq_append_iff.1 k1
  obtain ⟨op, post', e4, e5, e6⟩ := List.map_eq_cons_iff.1 e3
  subst e4
  refine ⟨pre', op, post', e1, by rw [e2]; exact k2, by rw [e2, e5]; exact k3, ?_⟩
  rw [hz]
  unfold lambdaAbsList
  have ho : oddinOf (|lv| - (ops.map KTSOp.maxVar).sum) ((ops.map KTSOp.maxVar).map fun _ => 0) = 0 := by
    unfold oddinOf
    have : indexOfOne ((ops.map KTSOp.maxVar).map fun _ => (0 : Int)) = none := by
      generalize ops.map KTSOp.maxVar = ms
      induction ms with
      | nil => rfl
      | cons x xs ih => simp [indexOfOne] at ih ⊢; exact ih
    rw [this]
    split <;> rfl
  have hs : ((ops.map KTSOp.maxVar).map fun _ => (0 : Int)).sum = 0 := by simp [Function.comp_def]
  have hzip : (ops.map KTSOp.maxVar).zip ((ops.map KTSOp.maxVar).map fun _ => (0 : Int)) =
      (ops.map KTSOp.maxVar).map fun m => (m, 0) := by
    generalize ops.map KTSOp.maxVar = ms
    induction ms with
    | nil => rfl
    | cons x xs ih => simp at ih ⊢; exact ih
  simp only [ho, hs, hzip, sub_zero, k4, py_bind_ok]
  rw [if_neg (by omega), if_pos h3, if_pos (by omega), if_neg (by omega)]
  have hl : (pre'.map KTSOp.maxVar).length = pre.length := by rw [e2]
  unfold leakShifts
  rw [e2]
  cases post' with
  | nil =>
    simp only [List.map_nil] at e6
    subst e6
    rw [if_pos rfl, pyAddAt_ok _ _ pre.length (by omega) (by simp)]
    simp
    omega
  | cons o t =>
    simp only [List.map_cons] at e6
    subst e6
    rw [if_neg (by simp), pyAddAt_ok _ _ (pre.length + 1) (by omega) (by simp)]
    simp [Function.comp_def]


/-! ### acceptance -/

section
variable {F : Type} [Field F] [LinearOrder F] [IsStrictOrderedRing F]

/-- The sums that the shifts of such a product reach. -/
theorem leak_low (pre : List KTSOp) (r : Int) (post : List KTSOp) (hv : ∀ op ∈ pre, op.Valid)
    (hr : (pre.map KTSOp.maxVar).sum < r) (j : Nat) :
    (post = [] → 0 ≤ sufSum (leakShifts pre r post) j) ∧ -1 ≤ sufSum (leakShifts pre r post) j ∧
      sufSum (leakShifts pre r post) j ≤ r := by
  have hp : ∀ x ∈ pre.map KTSOp.maxVar, 0 ≤ x := by
    intro x hx
    obtain ⟨op, ho, rfl⟩ := List.mem_map.1 hx
    exact maxVar_nonneg (hv op ho)
  have h1 := sufSum_le_sum (pre.map KTSOp.maxVar) j hp
  have h2 : 0 ≤ sufSum (pre.map KTSOp.maxVar) j := list_sum_nonneg _ fun x hx => hp x (List.mem_of_mem_drop hx)
  have h3 : 0 ≤ (pre.map KTSOp.maxVar).sum := list_sum_nonneg _ hp
  unfold leakShifts sufSum at *
  generalize pre.map KTSOp.maxVar = P at *
  rw [List.drop_append, List.sum_append]
  by_cases hj : j ≤ P.length
  · have e : j - P.length = 0 := by omega
    rw [e]
    have hsuf : (P.drop j).sum ≤ P.sum := h1
    cases post with
    | nil => simp; omega
    | cons o t => simp; omega
  · rw [List.drop_eq_nil_of_le (by omega)]
    obtain ⟨k, hk⟩ : ∃ k, j - P.length = k + 1 := ⟨j - P.length - 1, by omega⟩
    rw [hk]
    cases post with
    | nil => simp; omega
    | cons o t =>
      simp only [List.drop_succ_cons, List.sum_nil, zero_add]
      cases k with
      | zero => simp; omega
      | succ k => simp; omega

/-- The generators get no shift exactly if the operator that gets the `-1` is a monomial. -/
theorem leak_szero (pre : List KTSOp) (op : KTSOp) (r : Int) (post : List KTSOp)
    (hr1 : (pre.map KTSOp.maxVar).sum < r) (hr2 : r < (pre.map KTSOp.maxVar).sum + op.maxVar) :
    SZero (pre ++ op :: post) (leakShifts pre r post) ↔ (post = [] ∨ ∃ K T, post.head? = some (.KT K T)) := by
  have hop : op.isKT = true := by
    cases op with
    | KT K T => rfl
    | S s => simp [KTSOp.maxVar] at hr2; omega
  have hpre : ∀ i (hi : i < pre.length), pre[i].isKT = false → pre[i].maxVar = 0 := by
    intro i hi hk
    cases h : pre[i] with
    | KT K T => rw [h] at hk; simp [KTSOp.isKT] at hk
    | S s => rfl
  cases post with
  | nil =>
    simp only [true_or, iff_true]
    refine ⟨by simp [leakShifts], ?_⟩
    intro i hi hk
    simp only [leakShifts]
    by_cases c : i < pre.length
    · rw [List.getElem_append_left c] at hk
      rw [List.getElem_append_left (by simpa using c)]
      simpa using hpre i c hk
    · have : i = pre.length := by simp at hi; omega
      subst this
      simp [hop] at hk
  | cons o t =>
    constructor
    · rintro ⟨h1, h2⟩
      right
      have := h2 (pre.length + 1) (by simp)
      cases o with
      | KT K T => exact ⟨K, T, rfl⟩
      | S s =>
        exfalso
        have := this (by simp [KTSOp.isKT])
        simp [leakShifts] at this
    · rintro (h | ⟨K, T, h⟩)
      · simp at h
      · simp only [List.head?_cons, Option.some.injEq] at h
        subst h
        refine ⟨by simp [leakShifts], ?_⟩
        intro i hi hk
        simp only [leakShifts]
        by_cases c : i < pre.length
        · rw [List.getElem_append_left c] at hk
          rw [List.getElem_append_left (by simpa using c)]
          simpa using hpre i c hk
        · obtain ⟨k, rfl⟩ : ∃ k, i = pre.length + k := ⟨i - pre.length, by omega⟩
          match k with
          | 0 => simp [hop] at hk
          | 1 => simp [KTSOp.isKT] at hk
          | k + 2 => simp

/-- Which products are formed. -/
def Accepts (ops : List KTSOp) (lam : F) (lv : Int) : Prop :=
  (NoLeak ops lv ∧ (0 ≤ lv ∨ oddCount ops ≤ |lv| ∨ (((oddCount ops + |lv|) / 2 : Int) : F) < lam)) ∨
  (¬ NoLeak ops lv ∧ ∃ pre op post, ops = pre ++ op :: post ∧ (pre.map KTSOp.maxVar).sum < |lv| ∧
    |lv| < (pre.map KTSOp.maxVar).sum + op.maxVar ∧
    (post = [] ∨ ∃ K T, post.head? = some (.KT K T) ∧ (lv < 0 ∨ 1 < lam)))

theorem plan_accepts (rbs_op : List RadSym) (ops : List KTSOp) (lam : F) (lv : Int) (hp : Parse_RadialOp_List rbs_op = .ok ops)
    (ho : RadSym.other ∉ rbs_op) (h0 : 0 < lam) (h1 : 0 < lam + (lv : F)) :
    ∃ ops' shfs, RepRadial_Prod_plan rbs_op lv = .ok (ops', shfs) ∧
      ((∃ p, RepRadialshfs_Prod (formal F) ops' lam shfs = .ok p) ↔ Accepts ops lam lv) := by
  obtain ⟨parsed, ops', shfs, k1, k2, k3⟩ := plan_ok rbs_op lv ho
  rw [hp] at k1
  injection k1 with k1
  subst k1
  have hv : ∀ op ∈ ops, op.Valid := by
    obtain ⟨q, g1, g2, _⟩ := parse_ok rbs_op ho
    rw [hp] at g1
    injection g1 with g1
    subst g1
    exact g2
  refine ⟨ops', shfs, k2, ?_⟩
  rw [shfs_iff lam ops' shfs k3.len.symm k3.valid h0]
  have hmv : ∀ m ∈ ops.map KTSOp.maxVar, 0 ≤ m := by
    intro m hm
    obtain ⟨op, ho, rfl⟩ := List.mem_map.1 hm
    exact maxVar_nonneg (hv op ho)
  -- what the plan is, if the list has the length of the operators
  have plan : ∀ L, lambdaAbsList ops lv (ops.map KTSOp.maxVar) ((ops.map KTSOp.maxVar).map fun m => m % 2) = .ok L →
      L.length = ops.length → ops' = ops ∧ shfs = if lv ≥ 0 then L else L.map fun x => -x := by
    intro L hL hlen
    unfold RepRadial_Prod_plan at k2
    rw [hp] at k2
    simp only [py_bind_ok] at k2
    unfold Lambda_RadialOp_List at k2
    simp only [mapM_irem _ hmv, py_bind_ok, hL] at k2
    by_cases c : lv ≥ 0
    · simp only [if_pos c, py_pure, py_bind_ok] at k2 ⊢
      rw [if_neg (by omega)] at k2
      injection k2 with k2
      injection k2 with a b
      exact ⟨a.symm, b.symm⟩
    · simp only [if_neg c, py_pure, py_bind_ok] at k2 ⊢
      rw [if_neg (by simp; omega)] at k2
      injection k2 with k2
      injection k2 with a b
      exact ⟨a.symm, b.symm⟩
  by_cases hn : NoLeak ops lv
  · by_cases hg : 0 ≤ lv ∨ oddCount ops ≤ |lv|
    · refine iff_of_true ⟨k3.szero hn, fun j => ?_⟩ (Or.inl ⟨hn, by tauto⟩)
      have := k3.low hn hg j
      have h2 : ((min 0 lv : Int) : F) ≤ (sufSum shfs j : F) := by exact_mod_cast this
      rcases le_total 0 lv with c | c
      · rw [min_eq_left c, Int.cast_zero] at h2
        linarith
      · rw [min_eq_right c] at h2
        linarith
    · rw [not_or, not_le, not_le] at hg
      obtain ⟨p, q, e1, e2, e3, e4, e5⟩ := flip_list ops lv hg.2
      obtain ⟨g1, g2⟩ := plan _ e1 e5
      rw [if_neg (by omega)] at g2
      obtain ⟨t1, t2⟩ := negPos_top e2 e3
      constructor
      · rintro ⟨_, hpos⟩
        refine Or.inl ⟨hn, Or.inr (Or.inr ?_)⟩
        have := hpos p.length
        rw [g2, sufSum_neg_map, t2, e4] at this
        push_cast at this ⊢
        linarith
      · rintro (⟨_, h⟩ | ⟨h, _⟩)
        · refine ⟨k3.szero hn, fun j => ?_⟩
          have h2 : (((oddCount ops + |lv|) / 2 : Int) : F) < lam := by
            rcases h with h | h | h
            · omega
            · omega
            · exact h
          rw [g2, sufSum_neg_map]
          have := t1 j
          rw [e4] at this
          have h3 : (sufSum (p ++ q) j : F) ≤ (((oddCount ops + |lv|) / 2 : Int) : F) := by exact_mod_cast this
          rw [Int.cast_neg]
          linarith
        · exact absurd hn h
  · obtain ⟨pre, op, post, e1, e2, e3, e4⟩ := leak_list ops lv hv hn
    have hlen : (leakShifts pre |lv| post).length = ops.length := by
      rw [e1]
      cases post <;> simp [leakShifts]
    obtain ⟨g1, g2⟩ := plan _ e4 hlen
    have hacc : Accepts ops lam lv ↔ (post = [] ∨ ∃ K T, post.head? = some (.KT K T) ∧ (lv < 0 ∨ 1 < lam)) := by
      constructor
      · rintro (⟨h, _⟩ | ⟨_, pre', op', post', f1, f2, f3, f4⟩)
        · exact absurd h hn
        · obtain ⟨r1, r2, r3⟩ := split_unique KTSOp.maxVar pre pre' op op' post post' |lv|
            (fun o ho' => maxVar_nonneg (hv o (by rw [e1]; exact ho'))) (e1.symm.trans f1) e2 e3 f2 f3
          rw [r3]
          exact f4
      · intro h
        exact Or.inr ⟨hn, pre, op, post, e1, e2, e3, h⟩
    rw [hacc, g1]
    have hlow := leak_low pre |lv| post (fun o ho' => hv o (by rw [e1]; simp [ho'])) e2
    have hsz := leak_szero pre op |lv| post e2 e3
    rw [← e1] at hsz
    by_cases c : lv ≥ 0
    · rw [if_pos c] at g2
      rw [g2, hsz]
      have hab : |lv| = lv := abs_of_nonneg c
      constructor
      · rintro ⟨h | ⟨K, T, h⟩, hpos⟩
        · exact Or.inl h
        · refine Or.inr ⟨K, T, h, Or.inr ?_⟩
          have := hpos (pre.length + 1)
          cases post with
          | nil => simp at h
          | cons o t =>
            have e : sufSum (leakShifts pre |lv| (o :: t)) (pre.length + 1) = -1 := by
              simp [sufSum, leakShifts, List.drop_append,
                List.drop_eq_nil_of_le (show (pre.map KTSOp.maxVar).length ≤ pre.length + 1 by simp)]
            rw [e] at this
            push_cast at this
            linarith
      · rintro (h | ⟨K, T, h, hl⟩)
        · refine ⟨Or.inl h, fun j => ?_⟩
          have h3 : ((0 : Int) : F) ≤ (sufSum (leakShifts pre |lv| post) j : F) := by exact_mod_cast (hlow j).1 h
          rw [Int.cast_zero] at h3
          linarith
        · refine ⟨Or.inr ⟨K, T, h⟩, fun j => ?_⟩
          have h3 : ((-1 : Int) : F) ≤ (sufSum (leakShifts pre |lv| post) j : F) := by exact_mod_cast (hlow j).2.1
          push_cast at h3
          rcases hl with hl | hl
          · omega
          · linarith
    · rw [if_neg c] at g2
      rw [g2]
      have hneg : SZero ops ((leakShifts pre |lv| post).map fun x => -x) ↔ SZero ops (leakShifts pre |lv| post) := by
        constructor
        · intro h
          have := sZero_neg h
          simpa [List.map_map, Function.comp_def] using this
        · exact sZero_neg
      rw [hneg, hsz]
      constructor
      · rintro ⟨h | ⟨K, T, h⟩, _⟩
        · exact Or.inl h
        · exact Or.inr ⟨K, T, h, Or.inl (by omega)⟩
      · intro h
        refine ⟨?_, fun j => ?_⟩
        · rcases h with h | ⟨K, T, h, _⟩
          · exact Or.inl h
          · exact Or.inr ⟨K, T, h⟩
        · rw [sufSum_neg_map]
          have hab : |lv| = -lv := abs_of_neg (by omega)
          have h3 : (sufSum (leakShifts pre |lv| post) j : F) ≤ ((-lv : Int) : F) := by
            have := (hlow j).2.2
            exact_mod_cast this.trans hab.le
          push_cast at h3 ⊢
          linarith

end

end Acm
