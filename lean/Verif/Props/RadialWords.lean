import Verif.Lemmas.RadialProd
import Mathlib.Data.Rat.Cast.Order

/-!
# Properties C10-C16: products of radial operators

Statements about the model in `Verif.Model.RadialWords`, phrased with the specification
`Verif.Spec.RadialWords` (operator words in an arbitrary monoid in which `beta` is
invertible, and formal products that record which elementary matrix is used at which
`lambda`).
-/

set_option linter.unusedSectionVars false

namespace Acm.Props

open Acm Acm.Spec

variable {F : Type} [Field F] [LinearOrder F] [IsStrictOrderedRing F]

/-! ## C10 -/

/-- C10: for all `K`, `R` and `T ≥ 0`, `Lambda_Splits` returns `|K|+T` entries, or one more,
adding up to `R`; the last `|K|+T` entries are `-1`, `0` or `1`, and an extra first entry is
even unless `K = T = 0` and `R` is odd. -/
theorem C10_Lambda_Splits (K T R : Int) (hT : 0 ≤ T) :
    ∃ (extra body : List Int), Lambda_Splits K T R = .ok (extra ++ body) ∧
      (body.length : Int) = |K| + T ∧ extra.length ≤ 1 ∧ (extra ++ body).sum = R ∧
      (∀ y ∈ body, y = -1 ∨ y = 0 ∨ y = 1) ∧
      (∀ x ∈ extra, x % 2 = 0 ∨ (K = 0 ∧ T = 0 ∧ R % 2 = 1)) := by
  have hk := abs_natAbs K
  rcases Lambda_Splits_ok (K := K) (R := R) hT with ⟨body, h, hB⟩ | ⟨x, body, h, _, h2, hB⟩
  · refine ⟨[], body, h, ?_, by simp, ?_, hB.unit, by simp⟩
    · have := hB.len; omega
    · have := hB.sum; simpa using this
  · refine ⟨[x], body, h, ?_, by simp, ?_, hB.unit, by simpa using h2⟩
    · have := hB.len; omega
    · have := hB.sum; simpa using this

/-- C10: the extra entry, if any, pushes in the direction of `R`. -/
theorem C10_Lambda_Splits_extra_sign (K T R x : Int) (body : List Int) (hT : 0 ≤ T)
    (h : Lambda_Splits K T R = .ok (x :: body)) (hl : (body.length : Int) = |K| + T) :
    0 < x * R := by
  have hk := abs_natAbs K
  rcases Lambda_Splits_ok (K := K) (R := R) hT with ⟨b, h', hB⟩ | ⟨x', b, h', h1, _, hB⟩
  · rw [h] at h'
    injection h' with h'
    subst h'
    have := hB.len
    simp only [List.length_cons] at this
    omega
  · rw [h] at h'
    injection h' with h'
    injection h' with h' _
    subst h'
    rcases h1 with ⟨a, b⟩ | ⟨a, b⟩
    · exact mul_pos a b
    · exact mul_pos_of_neg_of_neg a b

/-- C10: a negative `T` is rejected. -/
theorem C10_Lambda_Splits_rejects (K T R : Int) (hT : T < 0) :
    Lambda_Splits K T R = .error .valueError := Lambda_Splits_err hT

example : Lambda_Splits 2 3 9 = .ok [4, 1, 1, 1, 1, 1] := by decide +kernel
example : Lambda_Splits (-2) 1 (-6) = .ok [-4, 0, -1, -1] := by decide +kernel
example : Lambda_Splits (-3) 3 0 = .ok [0, 0, 1, -1, 0, 0] := by decide +kernel
example : Lambda_Splits 0 0 7 = .ok [7] := by decide +kernel
example : Lambda_Splits 1 (-1) 0 = .error .valueError := by decide +kernel

/-! ## C11 -/

/-- C11: for every `K`, `T ≥ 0` and `R`, and every `lambda` with `lambda, lambda + R > 0`,
the product code runs to the end (no "This shouldn't arise!", no failing assertion); the
elementary matrices it multiplies chain from `lambda` to `lambda + R`, denote the word
`beta^K (d/dbeta)^T` in every monoid, and carry `anorm^(T-K)`. -/
theorem C11_bS_DS_factorisation (K T R : Int) (lam : F) (hT : 0 ≤ T) (h0 : 0 < lam)
    (h1 : 0 < lam + R) :
    ∃ p, RepRadial_bS_DS (formal F) K T lam R = .ok p ∧ Chain p.factors lam (lam + R) ∧
      (∀ (W : Type) [Monoid W] (I : Interp W), wordOf I p.factors = monomial I K T) ∧
      p.expo = T - K := by
  obtain ⟨p, a, b, c, d, _⟩ := bS_DS_formal K T R lam hT h0 h1
  exact ⟨p, a, b, c, d⟩

/-- C11, for the numbers: whatever the matrix primitives `A` are, a matrix that
`RepRadial_bS_DS` returns is an evaluation with `A` of such a product. -/
theorem C11_bS_DS_matrix {M : Type} (A : RadAlg F M) (K T R : Int) (lam : F) (hT : 0 ≤ T) (y : M)
    (h : RepRadial_bS_DS A K T lam R = .ok y) :
    ∃ p, Denotes A p y ∧ Chain p.factors lam (lam + R) ∧
      (∀ (W : Type) [Monoid W] (I : Interp W), wordOf I p.factors = monomial I K T) ∧
      p.expo = T - K := by
  obtain ⟨p, a, b⟩ := bS_DS_sim A K T lam R y h
  by_cases hpos : 0 < lam ∧ 0 < lam + (R : F)
  · obtain ⟨p', a', c⟩ := C11_bS_DS_factorisation K T R lam hT hpos.1 hpos.2
    rw [a] at a'
    injection a' with a'
    subst a'
    exact ⟨p, b, c⟩
  · rw [bS_DS_err _ _ _ _ _ hpos] at h
    cases h

/-- C11: a non-positive `lambda` or `lambda + R` is rejected, whatever the matrices. -/
theorem C11_bS_DS_rejects {M : Type} (A : RadAlg F M) (K T R : Int) (lam : F)
    (h : lam ≤ 0 ∨ lam + R ≤ 0) : RepRadial_bS_DS A K T lam R = .error .valueError :=
  bS_DS_err A K T R lam (by rw [not_and_or, not_lt, not_lt]; exact h)

example : RepRadial_bS_DS (formal ℚ) 2 1 (5/2) 1 =
    .ok ⟨[(.me .b2, 7/2), (.me .Db_pl, 5/2)], -1⟩ := by decide +kernel
example : RepRadial_bS_DS (formal ℚ) 1 1 (5/2) 0 =
    .ok ⟨[(.me .bDb, 5/2)], 0⟩ := by decide +kernel
example : RepRadial_bS_DS (formal ℚ) 1 1 (5/2) 5 =
    .ok ⟨[(.idPl 2, 7/2), (.sqrtB2, 7/2), (.me .Db_pl, 5/2)], 0⟩ := by decide +kernel

/-! ## C12 -/

/-- C12, the part that holds: except for `K < 0`, `T` odd, `R = 0` with `lambda ≤ 1`, every
elementary matrix used for `beta^K (d/dbeta)^T` is requested at a positive `lambda` and maps
to a positive `lambda`.  Missing from the full claim: the excluded case, which is false
(`C12_fails`). -/
theorem C12_positive_lambda_partial (K T R : Int) (lam : F) (hT : 0 ≤ T) (h0 : 0 < lam)
    (h1 : 0 < lam + R) (hx : K < 0 → R = 0 → T % 2 = 1 → 1 < lam) (p : FormalProd F)
    (h : RepRadial_bS_DS (formal F) K T lam R = .ok p) :
    ∀ f ∈ p.factors, 0 < f.2 ∧ 0 < f.2 + (f.1.shift : F) := by
  obtain ⟨p', a, _, _, _, d⟩ := bS_DS_formal K T R lam hT h0 h1
  rw [h] at a
  injection a with a
  subst a
  have key : 0 < lam + (lowest K T R : F) := by
    unfold lowest
    by_cases hs : K < 0 ∧ R = 0 ∧ T % 2 = 1
    · rw [if_pos hs]
      have := hx hs.1 hs.2.1 hs.2.2
      push_cast
      linarith
    · rw [if_neg hs]
      rcases le_total 0 R with h | h
      · rw [min_eq_left h]; push_cast; linarith
      · rw [min_eq_right h]; exact h1
  intro f hf
  obtain ⟨e1, e2⟩ := d f hf
  exact ⟨lt_of_lt_of_le key e1, lt_of_lt_of_le key e2⟩

example : (-2 : Int) < 0 → (0 : Int) = 0 → (3 : Int) % 2 = 1 → (1 : ℚ) < 5/2 := by decide +kernel
example : RepRadial_bS_DS (formal ℚ) (-1) 1 (5/2) 0 =
    .ok ⟨[(.me .bm_pl, 3/2), (.me .Db_ml, 5/2)], 2⟩ := by decide +kernel

/-- C12 fails: `beta^-1 d/dbeta` at `lambda = 1`, shift 0 (both ends positive) passes through
`lambda = 0`. -/
theorem C12_fails : ∃ (K T R : Int) (lam : ℚ) (p : FormalProd ℚ), 0 ≤ T ∧ 0 < lam ∧
    0 < lam + R ∧ RepRadial_bS_DS (formal ℚ) K T lam R = .ok p ∧
    ∃ f ∈ p.factors, f.2 ≤ 0 :=
  ⟨-1, 1, 0, 1, ⟨[(.me .bm_pl, 0), (.me .Db_ml, 1)], 2⟩, by decide, by decide +kernel,
    by decide +kernel, by decide +kernel, (.me .bm_pl, 0), by decide +kernel, by decide +kernel⟩

/-! ## C13 -/

/-- C13: for every list of known radial operators, `Parse_RadialOp_List` returns monomials
and S-operators (satisfying their class invariants) whose ordered product is that of the
list, in every monoid in which `beta` is invertible; the powers of `anorm` agree too. -/
theorem C13_parse (ops : List RadSym) (h : RadSym.other ∉ ops) :
    ∃ l, Parse_RadialOp_List ops = .ok l ∧ (∀ op ∈ l, ValidOp op) ∧
      (∀ (W : Type) [Monoid W] (I : Interp W),
        (l.map (opWord I)).prod = (ops.map (symWord I)).prod) ∧
      (l.map opExpo).sum = (ops.map symExpo).sum := by
  obtain ⟨l, a, b, c⟩ := parse_ok ops h
  exact ⟨l, a, fun op h => by have := b op h; cases op <;> exact this, c⟩

/-- C13: it raises exactly on unknown names. -/
theorem C13_parse_raises (ops : List RadSym) :
    Parse_RadialOp_List ops = .error .valueError ↔ RadSym.other ∈ ops := by
  refine ⟨fun h => ?_, parse_err ops⟩
  by_contra hn
  obtain ⟨l, a, _⟩ := parse_ok ops hn
  rw [a] at h
  cases h

example : Parse_RadialOp_List [.b, .D2b, .Db, .S0, .bm2, .bDb, .Sp] =
    .ok [.KT 1 3, .S 0, .KT (-1) 1, .S 1] := by decide +kernel
example : Parse_RadialOp_List [.Db, .b, .bm, .D2b] = .ok [.KT 0 3] := by decide +kernel
example : Parse_RadialOp_List [.Db, .other] = .error .valueError := by decide +kernel

/-! ## C14 -/

/-- C14: for every list of (valid) operators and every integer `lambda_var`,
`Lambda_RadialOp_List` succeeds and returns one shift per operator, or one extra leading
entry, with sum `lambda_var`. -/
theorem C14_shifts_sum (ops : List KTSOp) (lambda_var : Int) (hv : ∀ op ∈ ops, ValidOp op) :
    ∃ l, Lambda_RadialOp_List ops lambda_var = .ok l ∧ l.sum = lambda_var ∧
      (l.length = ops.length ∨ l.length = ops.length + 1) := by
  obtain ⟨l, a, b⟩ := lambdaList_ok ops lambda_var
    (fun op h => by have := hv op h; cases op <;> exact this)
  refine ⟨l, a, b.sum, ?_⟩
  rcases b.shape with ⟨s, _⟩ | ⟨x, t, rfl, ⟨s, _⟩, _⟩
  · exact Or.inl s
  · right; simp [s]

example : ∀ op ∈ [KTSOp.KT 2 1, .S 0, .KT (-3) 2], ValidOp op := by
  simp [ValidOp]
example : Lambda_RadialOp_List [.KT 2 1, .S 0, .KT (-3) 2] 5 = .ok [2, 0, 3] := by decide +kernel
example : Lambda_RadialOp_List [.S 0, .KT 1 0] 4 = .ok [4, 0, 0] := by decide +kernel

/-! ## C15 -/

theorem szero_unshifted {ops : List KTSOp} {l : List Int} (h : SZero ops l) :
    GeneratorsUnshifted ops l := by
  obtain ⟨hl, h⟩ := h
  intro i s hi
  obtain ⟨h1, h2⟩ := List.getElem?_eq_some_iff.1 hi
  rw [List.getElem?_eq_getElem (by omega), h i h1 (by rw [h2]; rfl)]

theorem noLeak_of_parityFits {ops : List KTSOp} {lv : Int} (h : ParityFits ops lv) :
    NoLeak ops lv := by
  have hd : ∀ op : KTSOp, op.maxVar = degree op := fun op => by cases op <;> rfl
  unfold ParityFits at h
  unfold NoLeak maxCount
  simpa only [hd, List.map_congr_left fun op _ => hd op] using h

/-- C15, the part that holds: when the parity of the shift can be met (`ParityFits`), every
SU(1,1) generator gets shift 0 (after an extra leading entry, if there is one).  Missing:
the other cases, where the claim is false (`C15_fails`). -/
theorem C15_generators_unshifted_partial (ops : List KTSOp) (lambda_var : Int)
    (hv : ∀ op ∈ ops, ValidOp op) (hp : ParityFits ops lambda_var) :
    ∃ extra l, Lambda_RadialOp_List ops lambda_var = .ok (extra ++ l) ∧
      l.length = ops.length ∧ extra.length ≤ 1 ∧ GeneratorsUnshifted ops l := by
  obtain ⟨l, a, b⟩ := lambdaList_ok ops lambda_var
    (fun op h => by have := hv op h; cases op <;> exact this)
  rcases b.shape with ⟨s, hz⟩ | ⟨x, t, rfl, hz, _⟩
  · exact ⟨[], l, a, s, by simp, szero_unshifted (hz (noLeak_of_parityFits hp))⟩
  · exact ⟨[x], t, a, hz.1, by simp, szero_unshifted hz⟩

example : ParityFits [.KT 2 1, .S 0, .KT (-3) 2] (-3) := Or.inl ⟨.KT 2 1, by decide, by decide⟩
example : Lambda_RadialOp_List [.KT 2 1, .S 0, .KT (-3) 2] (-3) = .ok [-2, 0, -1] := by decide +kernel

/-- C15 fails: for `beta^2 S0` and shift 1 the code assigns `-1` to `S0`, and the radial
product raises although `lambda` and `lambda + 1` are positive. -/
theorem C15_fails :
    ∃ (rbs_op : List RadSym) (lambda_var : Int) (ops : List KTSOp) (l : List Int),
      Parse_RadialOp_List rbs_op = .ok ops ∧ Lambda_RadialOp_List ops lambda_var = .ok l ∧
      ¬ GeneratorsUnshifted ops l ∧
      RepRadial_Prod (fun _ _ => formal ℚ) (fun x _ _ => x) rbs_op (5/2) lambda_var 0 3 0 =
        .error .valueError :=
  ⟨[.b2, .S0], 1, [.KT 2 0, .S 0], [2, -1], by decide +kernel, by decide +kernel,
    fun h => absurd (h 1 0 rfl) (by decide), by decide +kernel⟩

/-! ## C16 -/

/-- C16: whenever `RepRadial_Prod` returns a matrix - for any list of radial operators, any
`lambda_var`, any range and overlap, and any matrix primitives `A` - that matrix is the
(window of the) evaluation of a product of elementary matrices that starts at `lambda`, ends
at `lambda + lambda_var`, and denotes the product of the listed operators, in order, in every
monoid, with the right power of `anorm`. -/
theorem C16_radial_product {M : Type} (A : Int → Int → RadAlg F M) (slice : M → Int → Int → M)
    (rbs_op : List RadSym) (lam : F) (lambda_var nu_min nu_max nu_lap : Int) (y : M)
    (h : RepRadial_Prod A slice rbs_op lam lambda_var nu_min nu_max nu_lap = .ok y) :
    ∃ p z, Denotes (A (nu_min - min nu_lap nu_min) (nu_max + nu_lap)) p z ∧
      y = (if nu_lap = 0 then z
        else slice z (min nu_lap nu_min) (1 + nu_max - nu_min + min nu_lap nu_min)) ∧
      Chain p.factors lam (lam + lambda_var) ∧
      (∀ (W : Type) [Monoid W] (I : Interp W),
        wordOf I p.factors = (rbs_op.map (symWord I)).prod) ∧
      p.expo = (rbs_op.map symExpo).sum := by
  unfold RepRadial_Prod at h
  by_cases h1 : lam ≤ 0
  · rw [if_pos h1] at h; cases h
  rw [if_neg h1] at h
  by_cases h2 : lam + (lambda_var : F) ≤ 0
  · rw [if_pos h2] at h; cases h
  rw [if_neg h2] at h
  obtain ⟨⟨ops, shfs⟩, e1, h⟩ := py_bind_eq_ok h
  obtain ⟨z, e2, h⟩ := py_bind_eq_ok h
  have ho : RadSym.other ∉ rbs_op := by
    intro ho
    unfold RepRadial_Prod_plan at e1
    rw [parse_err _ ho] at e1
    cases e1
  obtain ⟨parsed, ops', shfs', g1, g2, g3⟩ := plan_ok rbs_op lambda_var ho
  rw [e1] at g2
  injection g2 with g2
  injection g2 with g2 g2'
  subst g2 g2'
  obtain ⟨p, f1, f2⟩ := shfsProd_sim _ ops lam shfs z e2
  have hp : p.factors = p.factors ∧ Chain p.factors lam (lam + (shfs.sum : F)) ∧
      (∀ (W : Type) [Monoid W] (I : Interp W), wordOf I p.factors = (ops.map (opWord I)).prod) ∧
      p.expo = (ops.map opExpo).sum := by
    unfold RepRadialshfs_Prod at f1
    obtain ⟨⟨lam', P⟩, k1, k2⟩ := py_bind_eq_ok f1
    obtain ⟨rfl, c2, c3, c4⟩ := shfs_formal lam ops shfs lam' P g3.len g3.valid k1
    cases P with
    | none =>
      injection k2 with k2
      subst k2
      exact ⟨rfl, c2, c3, c4⟩
    | some P =>
      injection k2 with k2
      subst k2
      exact ⟨rfl, c2, c3, c4⟩
  obtain ⟨_, p1, p2, p3⟩ := hp
  refine ⟨p, z, f2, ?_, ?_, fun W _ I => (p2 W I).trans (g3.word W I), p3.trans g3.expo⟩
  · by_cases h0 : nu_lap = 0
    · simp only [if_pos h0] at h ⊢
      injection h with h
      exact h.symm
    · simp only [if_neg h0] at h ⊢
      injection h with h
      exact h.symm
  · rw [← g3.sum]; exact p1

/-- C16, acceptance: the bookkeeping of `RepRadial_Prod` never fails when the parity of the
shift can be met and a negative shift is at least as large as the number of odd monomials.  The
other shifts are in `C16_acceptance`. -/
theorem C16_accepts (rbs_op : List RadSym) (ops : List KTSOp) (lam : F)
    (lambda_var nu_min nu_max nu_lap : Int) (h0 : 0 < lam) (h1 : 0 < lam + lambda_var)
    (hparse : Parse_RadialOp_List rbs_op = .ok ops) (hp : ParityFits ops lambda_var)
    (hn : 0 ≤ lambda_var ∨ oddMonomials ops ≤ |lambda_var|) :
    ∃ p, RepRadial_Prod (fun _ _ => formal F) (fun x _ _ => x) rbs_op lam lambda_var
      nu_min nu_max nu_lap = .ok p := by
  have ho : RadSym.other ∉ rbs_op := by
    intro ho
    rw [parse_err _ ho] at hparse
    cases hparse
  obtain ⟨parsed, ops', shfs, g1, g2, g3⟩ := plan_ok rbs_op lambda_var ho
  rw [hparse] at g1
  injection g1 with g1
  subst g1
  have hd : ∀ op : KTSOp, op.maxVar = degree op := fun op => by cases op <;> rfl
  have hn' : 0 ≤ lambda_var ∨ oddCount ops ≤ |lambda_var| := by
    unfold oddCount
    unfold oddMonomials at hn
    simpa only [hd] using hn
  have hlow := g3.low (noLeak_of_parityFits hp) hn'
  obtain ⟨P, e⟩ := shfs_total lam ops' shfs g3.valid (g3.szero (noLeak_of_parityFits hp)) (by
    intro j
    have : ((min 0 lambda_var : Int) : F) ≤ (sufSum shfs j : F) := Int.cast_le.2 (hlow j)
    rcases le_total 0 lambda_var with h | h
    · rw [min_eq_left h] at this; push_cast at this; linarith
    · rw [min_eq_right h] at this; linarith)
  unfold RepRadial_Prod RepRadialshfs_Prod
  rw [if_neg (not_le.2 h0), if_neg (not_le.2 h1), g2]
  simp only [py_bind_ok]
  rw [e]
  simp only [py_bind_ok]
  cases P <;> by_cases h0 : nu_lap = 0 <;> simp [h0]

example : Parse_RadialOp_List [.b, .Db, .S0, .bm] = .ok [.KT 1 1, .S 0, .KT (-1) 0] ∧
    (0 ≤ (-3 : Int) ∨ oddMonomials [.KT 1 1, .S 0, .KT (-1) 0] ≤ |(-3 : Int)|) := by
  decide +kernel
example : ParityFits [.KT 1 1, .S 0, .KT (-1) 0] (-3) :=
  Or.inl ⟨.KT (-1) 0, by decide, by decide⟩
example : RepRadial_Prod (fun _ _ => formal ℚ) (fun x _ _ => x) [.b, .Db, .S0, .bm] (9/2) (-3) 0 5 2 =
    .ok ⟨[(.me .b_ml, 5/2), (.me .Db_ml, 7/2), (.me .S0, 7/2), (.me .bm_ml, 9/2)], 1⟩ := by
  decide +kernel

/-- C16: a product of valid operators can be rejected although both ends are positive: five
factors `d/dbeta S0 d/dbeta S0 d/dbeta`, `lambda = 3/2`, shift `-1`. -/
theorem C16_rejects_valid :
    ∃ (rbs_op : List RadSym) (lam : ℚ) (lambda_var : Int), RadSym.other ∉ rbs_op ∧
      0 < lam ∧ 0 < lam + lambda_var ∧
      RepRadial_Prod (fun _ _ => formal ℚ) (fun x _ _ => x) rbs_op lam lambda_var 0 3 0 =
        .error .valueError :=
  ⟨[.Db, .S0, .Db, .S0, .Db], 3/2, -1, by decide, by decide +kernel, by decide +kernel,
    by decide +kernel⟩

/-- C16: unknown operators and non-positive `lambda`s are rejected. -/
theorem C16_rejects {M : Type} (A : Int → Int → RadAlg F M) (slice : M → Int → Int → M)
    (rbs_op : List RadSym) (lam : F) (lambda_var nu_min nu_max nu_lap : Int)
    (h : lam ≤ 0 ∨ lam + lambda_var ≤ 0 ∨ RadSym.other ∈ rbs_op) :
    RepRadial_Prod A slice rbs_op lam lambda_var nu_min nu_max nu_lap = .error .valueError := by
  unfold RepRadial_Prod
  by_cases h1 : lam ≤ 0
  · rw [if_pos h1]; rfl
  rw [if_neg h1]
  by_cases h2 : lam + (lambda_var : F) ≤ 0
  · rw [if_pos h2]; rfl
  rw [if_neg h2]
  have ho : RadSym.other ∈ rbs_op := by tauto
  unfold RepRadial_Prod_plan
  rw [parse_err _ ho]
  rfl

end Acm.Props
