import Verif.Lemmas.RadialAccept
import Verif.Props.RadialWords

/-!
# Properties C15, C16: exactly when a generator is shifted, and which radial products are formed

`RepRadial_Prod` hands out the lambda shift among the operators of a product before it forms
the product.  Some products are refused although `lambda` and `lambda + lambda_var` are positive
(`C16_rejects_valid`).  Here is exactly which ones.
-/

set_option linter.unusedSectionVars false

namespace Acm.Props

open Acm Acm.Spec

variable {F : Type} [Field F] [LinearOrder F] [IsStrictOrderedRing F]

theorem accepts_reachable (ops : List KTSOp) (lam : F) (lv : Int) : Accepts ops lam lv ↔ Reachable ops lam lv := by
  have hd : KTSOp.maxVar = degree := funext fun op => by cases op <;> rfl
  have h1 : NoLeak ops lv ↔ ParityFits ops lv := by
    unfold NoLeak ParityFits maxCount
    rw [hd]
  unfold Accepts Reachable oddCount oddMonomials
  rw [h1, hd]

theorem unshifted_szero {ops : List KTSOp} {l : List Int} (hl : l.length = ops.length)
    (h : GeneratorsUnshifted ops l) : SZero ops l := by
  refine ⟨hl, fun i hi hk => ?_⟩
  cases ho : ops[i] with
  | KT K T => rw [ho] at hk; simp [KTSOp.isKT] at hk
  | S s =>
    have := h i s (by rw [List.getElem?_eq_getElem hi, ho])
    rw [List.getElem?_eq_getElem (by omega)] at this
    exact Option.some.inj this

/-- C15, exactly when it fails: a generator gets a shift if and only if the product is even, the
shift is odd and smaller than the degree, and the operator to the right of the monomial in which
the shift ends is a generator. -/
theorem C15_generator_shifted (ops : List KTSOp) (lambda_var : Int) (hv : ∀ op ∈ ops, ValidOp op) :
    (∃ l, Lambda_RadialOp_List ops lambda_var = .ok l ∧ l.length = ops.length ∧ ¬ GeneratorsUnshifted ops l) ↔
    ¬ ParityFits ops lambda_var ∧ ∃ pre op s post, ops = pre ++ op :: .S s :: post ∧
      (pre.map degree).sum < |lambda_var| ∧ |lambda_var| < (pre.map degree).sum + degree op := by
  have hv' : ∀ op ∈ ops, op.Valid := fun op h => by have := hv op h; cases op <;> exact this
  have hd : KTSOp.maxVar = degree := funext fun op => by cases op <;> rfl
  have h1 : NoLeak ops lambda_var ↔ ParityFits ops lambda_var := by
    unfold NoLeak ParityFits maxCount
    rw [hd]
  have hmv : ∀ m ∈ ops.map KTSOp.maxVar, 0 ≤ m := by
    intro m hm
    obtain ⟨op, ho, rfl⟩ := List.mem_map.1 hm
    exact maxVar_nonneg (hv' op ho)
  by_cases hn : NoLeak ops lambda_var
  · refine iff_of_false ?_ fun h => h.1 (h1.1 hn)
    rintro ⟨l, a, b, c⟩
    obtain ⟨l', a', b'⟩ := lambdaList_ok ops lambda_var hv'
    rw [a] at a'
    injection a' with a'
    subst a'
    rcases b'.shape with ⟨_, hz⟩ | ⟨x, t, rfl, hz, _⟩
    · exact c (szero_unshifted (hz hn))
    · have := hz.1
      simp at b
      omega
  · obtain ⟨pre, op, post, e1, e2, e3, e4⟩ := leak_list ops lambda_var hv' hn
    have hlen : (leakShifts pre |lambda_var| post).length = ops.length := by
      rw [e1]
      cases post <;> simp [leakShifts]
    have hsz := leak_szero pre op |lambda_var| post e2 e3
    rw [← e1] at hsz
    obtain ⟨l, hl, hll, hls⟩ : ∃ l, Lambda_RadialOp_List ops lambda_var = .ok l ∧ l.length = ops.length ∧
        (SZero ops l ↔ SZero ops (leakShifts pre |lambda_var| post)) := by
      unfold Lambda_RadialOp_List
      simp only [mapM_irem _ hmv, py_bind_ok, e4]
      by_cases c : lambda_var ≥ 0
      · exact ⟨_, by rw [if_pos c]; rfl, hlen, Iff.rfl⟩
      · refine ⟨_, by rw [if_neg c]; rfl, by simpa using hlen, fun h => ?_, sZero_neg⟩
        simpa [List.map_map, Function.comp_def] using sZero_neg h
    rw [← h1]
    constructor
    · rintro ⟨l', a, b, c⟩
      rw [hl] at a
      injection a with a
      subst a
      refine ⟨hn, ?_⟩
      have hc : ¬ (post = [] ∨ ∃ K T, post.head? = some (.KT K T)) := fun h =>
        c (szero_unshifted (hls.2 (hsz.2 h)))
      match post, hc with
      | [], hc => exact absurd (Or.inl rfl) hc
      | .KT K T :: t, hc => exact absurd (Or.inr ⟨K, T, rfl⟩) hc
      | .S s :: t, _ => exact ⟨pre, op, s, t, e1, by rw [← hd]; exact e2, by rw [← hd]; exact e3⟩
    · rintro ⟨_, pre', op', s, post', f1, f2, f3⟩
      refine ⟨l, hl, hll, fun h => ?_⟩
      rw [← hd] at f2 f3
      obtain ⟨r1, r2, r3⟩ := split_unique KTSOp.maxVar pre pre' op op' post (.S s :: post') |lambda_var|
        (fun o ho' => maxVar_nonneg (hv' o (by rw [e1]; exact ho'))) (e1.symm.trans f1) e2 e3 f2 f3
      rcases hsz.1 (hls.1 (unshifted_szero hll h)) with g | ⟨K, T, g⟩
      · rw [r3] at g; simp at g
      · rw [r3] at g; simp at g

example : ¬ ParityFits [.KT 2 0, .S 0] 1 ∧ [KTSOp.KT 2 0, .S 0] = [] ++ .KT 2 0 :: .S 0 :: [] := by
  refine ⟨?_, rfl⟩
  rintro (⟨op, h, h'⟩ | h | h)
  · simp at h
    rcases h with rfl | rfl <;> exact absurd h' (by decide)
  · exact absurd h (by decide)
  · exact absurd h (by decide)

/-- C16, acceptance, exactly: for every list of radial operators, every `lambda` and every
shift, the bookkeeping of `RepRadial_Prod` succeeds if and only if both ends are positive and
the shift is one of those described by `Reachable`. -/
theorem C16_acceptance (rbs_op : List RadSym) (ops : List KTSOp) (lam : F)
    (lambda_var nu_min nu_max nu_lap : Int) (hparse : Parse_RadialOp_List rbs_op = .ok ops) :
    (∃ p, RepRadial_Prod (fun _ _ => formal F) (fun x _ _ => x) rbs_op lam lambda_var
      nu_min nu_max nu_lap = .ok p) ↔
    0 < lam ∧ 0 < lam + lambda_var ∧ Reachable ops lam lambda_var := by
  have ho : RadSym.other ∉ rbs_op := by
    intro ho
    rw [parse_err _ ho] at hparse
    cases hparse
  by_cases h0 : 0 < lam
  · by_cases h1 : 0 < lam + (lambda_var : F)
    · obtain ⟨ops', shfs, g1, g2⟩ := plan_accepts rbs_op ops lam lambda_var hparse ho h0 h1
      rw [← accepts_reachable, ← g2]
      unfold RepRadial_Prod
      rw [if_neg (not_le.2 h0), if_neg (not_le.2 h1), g1]
      simp only [py_bind_ok]
      cases hr : RepRadialshfs_Prod (formal F) ops' lam shfs with
      | error e => simp
      | ok p =>
        simp only [py_bind_ok, h0, h1, true_and]
        by_cases hn : nu_lap = 0 <;> simp [hn]
    · rw [C16_rejects _ _ rbs_op lam lambda_var nu_min nu_max nu_lap (Or.inr (Or.inl (not_lt.1 h1)))]
      simp [h1]
  · rw [C16_rejects _ _ rbs_op lam lambda_var nu_min nu_max nu_lap (Or.inl (not_lt.1 h0))]
    simp [h0]

/-- C16: a shift that is not one of these gives an exception, whatever the matrices. -/
theorem C16_unreachable {M : Type} (A : Int → Int → RadAlg F M) (slice : M → Int → Int → M)
    (rbs_op : List RadSym) (ops : List KTSOp) (lam : F) (lambda_var nu_min nu_max nu_lap : Int)
    (hparse : Parse_RadialOp_List rbs_op = .ok ops) (hr : ¬ Reachable ops lam lambda_var) :
    ∃ e, RepRadial_Prod A slice rbs_op lam lambda_var nu_min nu_max nu_lap = .error e := by
  cases h : RepRadial_Prod A slice rbs_op lam lambda_var nu_min nu_max nu_lap with
  | error e => exact ⟨e, rfl⟩
  | ok y =>
    exfalso
    have hc := mt (C16_acceptance rbs_op ops lam lambda_var nu_min nu_max nu_lap hparse).1 fun h => hr h.2.2
    apply hc
    unfold RepRadial_Prod at h ⊢
    by_cases h1 : lam ≤ 0
    · rw [if_pos h1] at h; cases h
    rw [if_neg h1] at h ⊢
    by_cases h2 : lam + (lambda_var : F) ≤ 0
    · rw [if_pos h2] at h; cases h
    rw [if_neg h2] at h ⊢
    obtain ⟨⟨ops', shfs⟩, e1, h⟩ := py_bind_eq_ok h
    obtain ⟨z, e2, h⟩ := py_bind_eq_ok h
    obtain ⟨p, f1, f2⟩ := shfsProd_sim _ ops' lam shfs z e2
    rw [e1]
    simp only [py_bind_ok]
    rw [f1]
    simp only [py_bind_ok]
    by_cases hn : nu_lap = 0 <;> simp [hn]

-- three odd monomials and the shift -1: formed exactly above lambda = 2
example (lam : ℚ) : Reachable [.KT 0 1, .S 0, .KT 0 1, .S 0, .KT 0 1] lam (-1) ↔ 2 < lam := by
  have e : (((oddMonomials [.KT 0 1, .S 0, .KT 0 1, .S 0, .KT 0 1] + |(-1 : Int)|) / 2 : Int) : ℚ) = 2 := by
    rw [show ((oddMonomials [.KT 0 1, .S 0, .KT 0 1, .S 0, .KT 0 1] + |(-1 : Int)|) / 2 : Int) = 2 by decide]
    rfl
  have h1 : ParityFits [.KT 0 1, .S 0, .KT 0 1, .S 0, .KT 0 1] (-1) := Or.inl ⟨.KT 0 1, by decide, by decide⟩
  constructor
  · rintro (⟨_, h | h | h⟩ | ⟨h, _⟩)
    · exact absurd h (by decide)
    · exact absurd h (by decide)
    · rwa [e] at h
    · exact absurd h1 h
  · intro h
    exact Or.inl ⟨h1, Or.inr (Or.inr (by rwa [e]))⟩

-- an even product with an odd shift that ends in its first factor: a generator to the right is
-- in the way, a monomial is not
example : Parse_RadialOp_List [.b2, .S0, .b2] = .ok [.KT 2 0, .S 0, .KT 2 0] ∧
    Parse_RadialOp_List [.b2, .bm2, .D2b] = .ok [.KT 0 2] := by decide +kernel
example (lam : ℚ) : ¬ Reachable [.KT 2 0, .S 0, .KT 2 0] lam 1 := by
  have h1 : ¬ ParityFits [.KT 2 0, .S 0, .KT 2 0] 1 := by
    rintro (⟨op, h, h'⟩ | h | h)
    · simp at h
      rcases h with rfl | rfl | rfl <;> exact absurd h' (by decide)
    · exact absurd h (by decide)
    · exact absurd h (by decide)
  rintro (⟨h, _⟩ | ⟨_, pre, op, post, e, a, b, c⟩)
  · exact h1 h
  · match pre, e with
    | [], e =>
      simp only [List.nil_append, List.cons.injEq] at e
      obtain ⟨rfl, rfl⟩ := e
      rcases c with c | ⟨K, T, c, _⟩
      · simp at c
      · simp at c
    | x :: xs, e =>
      simp only [List.cons_append, List.cons.injEq] at e
      obtain ⟨rfl, e⟩ := e
      have h2 : 0 ≤ (xs.map degree).sum := by
        apply list_sum_nonneg
        intro y hy
        obtain ⟨o, ho, rfl⟩ := List.mem_map.1 hy
        have : o ∈ [KTSOp.S 0, .KT 2 0] := by rw [e]; simp [ho]
        simp at this
        rcases this with rfl | rfl <;> decide
      simp only [List.map_cons, List.sum_cons, degree] at a
      have h3 : |(2 : Int)| + 0 + (xs.map degree).sum < |(1 : Int)| := a
      have h4 : |(2 : Int)| = 2 := rfl
      have h5 : |(1 : Int)| = 1 := rfl
      omega
example : RepRadial_Prod (fun _ _ => formal ℚ) (fun x _ _ => x) [.b2] (5/2) 1 0 3 0 =
    .ok ⟨[(.sqrtB2, 7/2), (.me .b_pl, 5/2)], -2⟩ := by decide +kernel

end Acm.Props
