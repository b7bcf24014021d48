import Verif.Props.FullSum

/-!
# Properties C35, C36: products of two momenta
-/

namespace Acm.Props

open Acm Acm.Spec

/-! ## C35 -/

/-- The order of the loops. -/
def Later (c d : ℕ × ℕ) : Prop := c.2 < d.2 ∨ (d.2 = c.2 ∧ c.1 < d.1)

theorem allCells_sorted (n : ℕ) : (allCells n).Pairwise Later := by
  unfold allCells cellsOf
  rw [List.pairwise_flatMap]
  refine ⟨fun j _ => ?_, ?_⟩
  · rw [List.pairwise_map]
    exact List.pairwise_lt_range.imp fun h => .inr ⟨rfl, h⟩
  · refine List.pairwise_lt_range.imp ?_
    intro a b hab x hx y hy
    simp only [List.mem_map] at hx hy
    obtain ⟨i, _, rfl⟩ := hx
    obtain ⟨k, _, rfl⟩ := hy
    exact .inl hab

theorem dropWhile_sorted (c : ℕ × ℕ) [DecidablePred (Later c)] : ∀ (l : List (ℕ × ℕ)), l.Pairwise Later → c ∈ l →
    l.dropWhile (fun d => !decide (d = c)) = l.filter fun d => decide (d = c ∨ Later c d) := by
  intro l
  induction l with
  | nil => intro _ h; cases h
  | cons d l ih =>
    intro hp hc
    rw [List.pairwise_cons] at hp
    by_cases h : d = c
    · subst h
      rw [List.dropWhile_cons_of_neg (by simp)]
      symm
      rw [List.filter_eq_self]
      intro x hx
      rcases List.mem_cons.1 hx with rfl | hx
      · simp
      · simp [hp.1 x hx]
    · rw [List.dropWhile_cons_of_pos (by simpa using h)]
      have hc' : c ∈ l := by
        rcases List.mem_cons.1 hc with e | e
        · exact absurd e.symm h
        · exact e
      rw [ih hp.2 hc', List.filter_cons_of_neg]
      have hl : Later d c := hp.1 c hc'
      simp only [decide_eq_true_eq, not_or]
      refine ⟨h, ?_⟩
      unfold Later at hl ⊢
      omega

theorem writesFrom_eq (bs : ℕ → ℕ → Option Arr) (n i j : ℕ) (hi : i < n) (hj : j < n) :
    writesFrom bs (allCells n) (i, j) = lateBlocks n (fun i j => ∃ B, bs i j = some B) i j := by
  classical
  unfold writesFrom lateBlocks
  rw [dropWhile_sorted (i, j) _ (allCells_sorted n) (mem_allCells.2 ⟨hi, hj⟩), List.countP_eq_length_filter,
    List.filter_filter, ← List.toFinset_card_of_nodup ((allCells_nodup n).filter _)]
  congr 1
  ext ⟨x, y⟩
  simp only [List.mem_toFinset, List.mem_filter, mem_allCells, Finset.mem_filter, Finset.mem_product,
    Finset.mem_range, Bool.and_eq_true, decide_eq_true_eq, Option.isSome_iff_exists, Prod.mk.injEq, Later]
  constructor
  · rintro ⟨h1, h2, h3⟩
    exact ⟨h1, h2, by omega⟩
  · rintro ⟨h1, h2, h3⟩
    exact ⟨h1, h2, by omega⟩

/-- C35, exactly what the code does, and so the property for `L = 4`.  If `[pi x pi]_L` has a
representation, there is for each pair of states either the block that the loop body computes or nothing;
elements in skipped blocks are zero; for `L ≠ 2` every block is used with the same sign; for
`L = 2` the block gets a sign for each of the blocks written at or after it.

What is missing for `L = 2`: the same sign for all blocks, see `C35_fails`. -/
theorem C35_partial {env : XEnv} {lam : LambdaFunction} {L : Int} (hL : 0 ≤ L) {a : XArgs}
    (h : LegalRanges a) {M : Arr} (hM : RepXspace_PiPi env lam L a = .ok M) {states : List Label}
    (hs : lbsSO5r3_rngVvarL a.v_min a.v_max a.L_min (some a.L_max) = .ok states) (r : ℕ)
    (hr : (r : Int) = a.nu_max - a.nu_min + 1) :
    ∃ b : ℕ → ℕ → Option Arr,
      (∀ i j init fin, states[j]? = some init → states[i]? = some fin →
        ∃ l, lam init.1 = .ok l ∧ pipiBlock env lam L a i j init fin l = .ok (b i j)) ∧
      Square (states.length * r) M ∧
      ∀ i < states.length, ∀ j < states.length, ∀ x < r, ∀ y < r,
        (b i j = none → M.e (i * r + x) (j * r + y) = 0) ∧
        ∀ B, b i j = some B → M.e (i * r + x) (j * r + y)
          = if L = 2 then (-1) ^ lateBlocks states.length (fun i j => ∃ B, b i j = some B) i j * B.e x y
            else B.e x y := by
  rw [states_ok h] at hs
  injection hs with hs
  subst hs
  have hr' : a.rdim = r := by unfold XArgs.rdim; omega
  have hr0 := rdim_pos h
  rw [PiPi_eq h env lam hL] at hM
  have sq := fill_square hr0 (keepsShape_neg L) (neg_scale L) hM
  obtain ⟨b, hb, rfl⟩ := (fillBlocks_iff hr0 (keepsShape_neg L)).1 hM
  rw [hr'] at hb hr0 sq ⊢
  refine ⟨b, ?_, sq, ?_⟩
  · intro i j init fin hj hi
    obtain ⟨init', fin', l, e1, e2, e3, e4⟩ := (hb i (List.getElem?_eq_some_iff.1 hi).1 j
      (List.getElem?_eq_some_iff.1 hj).1).1
    rw [hj] at e1
    rw [hi] at e2
    injection e1 with e1
    injection e2 with e2
    subst e1 e2
    exact ⟨l, e3, e4⟩
  · intro i hi j hj x hx y hy
    have d1 : ∀ i x, x < r → (i * r + x) / r = i ∧ (i * r + x) % r = x := by
      intro i x hx
      refine ⟨?_, ?_⟩
      · rw [Nat.mul_comm, Nat.mul_add_div hr0, Nat.div_eq_of_lt hx, Nat.add_zero]
      · rw [Nat.mul_comm, Nat.mul_add_mod, Nat.mod_eq_of_lt hx]
    have e := foldl_blkStep_e (r := r) (neg_scale L) b (allCells a.states.length) (allCells_nodup _)
      (Arr.zeros (a.states.length * r) (a.states.length * r)) (i * r + x) (j * r + y)
    rw [(d1 i x hx).1, (d1 i x hx).2, (d1 j y hy).1, (d1 j y hy).2, if_pos (mem_allCells.2 ⟨hi, hj⟩)] at e
    refine ⟨fun hn => ?_, fun B hB => ?_⟩
    · rw [hn] at e
      simp only at e
      rw [e]
      have hz : (Arr.zeros (a.states.length * r) (a.states.length * r)).e (i * r + x) (j * r + y) = 0 := by
        simp [Arr.zeros, Arr.of]
      rw [hz, mul_zero]
    · rw [hB] at e
      simp only at e
      rw [e, writesFrom_eq b _ i j hi hj]
      by_cases h2 : L = 2
      · rw [if_pos h2, if_pos h2]
      · rw [if_neg h2, if_neg h2, one_pow, one_mul]

/-- The range of the counterexample below: the two states (1, 1, 2) and (2, 1, 2). -/
noncomputable def arg12 : XArgs := ⟨1, 5 / 2, 0, 0, 1, 2, 2, 2⟩

theorem arg12_legal : LegalRanges arg12 := by unfold LegalRanges arg12; simp

theorem arg12_states : arg12.states = [(1, 1, 2), (2, 1, 2)] := by
  have h : lbsSO5r3_rngVvarL 1 2 2 (some 2) = .ok [(1, 1, 2), (2, 1, 2)] := by decide +kernel
  have := (states_ok arg12_legal).symm.trans h
  injection this

theorem arg12_rdim : arg12.rdim = 1 := rfl

/-- C35 fails: if the two coefficients are not zero, `[pi x pi]_2` on the states (1,1,2) and
(2,1,2) has the block of the first state with the sign `+` and that of the second with `-`. -/
theorem C35_fails {env : XEnv} {c1 c2 : ℝ} (h1 : env.CG (1, 1, 2) (2, 1, 2) (1, 1, 2) = .ok c1)
    (h2 : env.CG (2, 1, 2) (2, 1, 2) (2, 1, 2) = .ok c2) (n1 : c1 ≠ 0) (n2 : c2 ≠ 0) :
    ∃ M B B', RepXspace_PiPi env lambda_acm_fun 2 arg12 = .ok M ∧
      pipiBlock env lambda_acm_fun 2 arg12 0 0 (1, 1, 2) (1, 1, 2) 1 = .ok (some B) ∧
      pipiBlock env lambda_acm_fun 2 arg12 1 1 (2, 1, 2) (2, 1, 2) 0 = .ok (some B') ∧
      B.e 0 0 ≠ 0 ∧ B'.e 0 0 ≠ 0 ∧ M.e 0 0 = B.e 0 0 ∧ M.e 1 1 = -B'.e 0 0 := by
  have l1 : lambda_acm_fun 1 = .ok 1 := by decide +kernel
  have l2 : lambda_acm_fun 2 = .ok 0 := by decide +kernel
  have q1 : QxQred_0 1 = .ok (Real.sqrt (24 / 105)) := by
    unfold QxQred_0 symSqrt
    rw [require_nonnegint_ok (by norm_num), py_bind_ok]
    norm_num
  have q2 : QxQred_0 2 = .ok (Real.sqrt (60 / 225)) := by
    unfold QxQred_0 symSqrt
    rw [require_nonnegint_ok (by norm_num), py_bind_ok]
    norm_num
  have s0 : arg12.states[0]? = some (1, 1, 2) := by rw [arg12_states]; rfl
  have s1 : arg12.states[1]? = some (2, 1, 2) := by rw [arg12_states]; rfl
  have x1 : xLC env arg12 [(1, [.D2b]), (-6, [.bm2])] 1 1 0 = .ok (one1 (-(7 / 2))) := by
    unfold xLC
    have := LC_same (la := env.la) (lam := 7 / 2) (by norm_num) (by norm_num) (-6)
    norm_num [arg12] at this ⊢
    exact this
  have x2 : xLC env arg12 [(1, [.D2b]), (-12, [.bm2])] 0 0 0 = .ok (one1 (-(55 / 6))) := by
    unfold xLC
    have := LC_same (la := env.la) (lam := 5 / 2) (by norm_num) (by norm_num) (-12)
    norm_num [arg12] at this ⊢
    exact this
  have p1 : pipiBlock env lambda_acm_fun 2 arg12 0 0 (1, 1, 2) (1, 1, 2) 1
      = .ok (some (one1 (-(7 / 2) * -Real.sqrt (24 / 105) * c1))) := by
    simp only [pipiBlock, l1, py_bind_ok]
    norm_num
    rw [x1, py_bind_ok, q1, py_bind_ok, h1, py_bind_ok, one1_smul, one1_smul]
    norm_num
  have p2 : pipiBlock env lambda_acm_fun 2 arg12 1 1 (2, 1, 2) (2, 1, 2) 0
      = .ok (some (one1 (-(55 / 6) * -Real.sqrt (60 / 225) * c2))) := by
    simp only [pipiBlock, l2, py_bind_ok]
    norm_num
    rw [x2, py_bind_ok, q2, py_bind_ok, h2, py_bind_ok, one1_smul, one1_smul]
    norm_num
  have p01 : BodyGives lambda_acm_fun arg12.states (pipiBlock env lambda_acm_fun 2 arg12) 0 1 none := by
    refine ⟨(2, 1, 2), (1, 1, 2), 0, s1, s0, l2, ?_⟩
    simp [pipiBlock, l1]
  have p10 : BodyGives lambda_acm_fun arg12.states (pipiBlock env lambda_acm_fun 2 arg12) 1 0 none := by
    refine ⟨(1, 1, 2), (2, 1, 2), 1, s0, s1, l1, ?_⟩
    simp [pipiBlock, l2]
  have hsh : ∀ x, BlockShape 1 (some (one1 x)) := fun x B hB => by
    injection hB with hB; subst hB; exact one1_shape x
  have hnone : BlockShape 1 none := fun B hB => by cases hB
  have r1 : Real.sqrt (24 / 105) ≠ 0 := (Real.sqrt_pos.2 (by norm_num)).ne'
  have r2 : Real.sqrt (60 / 225) ≠ 0 := (Real.sqrt_pos.2 (by norm_num)).ne'
  let bs : ℕ → ℕ → Option Arr := fun i j => if i = 0 ∧ j = 0 then
    some (one1 (-(7 / 2) * -Real.sqrt (24 / 105) * c1)) else
    if i = 1 ∧ j = 1 then some (one1 (-(55 / 6) * -Real.sqrt (60 / 225) * c2)) else none
  have b00 : bs 0 0 = some (one1 (-(7 / 2) * -Real.sqrt (24 / 105) * c1)) := rfl
  have b11 : bs 1 1 = some (one1 (-(55 / 6) * -Real.sqrt (60 / 225) * c2)) := rfl
  have b01 : bs 0 1 = none := rfl
  have b10 : bs 1 0 = none := rfl
  have hbs : ∀ i < 2, ∀ j < 2, BodyGives lambda_acm_fun arg12.states (pipiBlock env lambda_acm_fun 2 arg12)
      i j (bs i j) ∧ BlockShape 1 (bs i j) := by
    intro i hi j hj
    have : (i = 0 ∨ i = 1) ∧ (j = 0 ∨ j = 1) := by omega
    rcases this with ⟨rfl | rfl, rfl | rfl⟩
    · rw [b00]; exact ⟨⟨_, _, _, s0, s0, l1, p1⟩, hsh _⟩
    · rw [b01]; exact ⟨p01, hnone⟩
    · rw [b10]; exact ⟨p10, hnone⟩
    · rw [b11]; exact ⟨⟨_, _, _, s1, s1, l2, p2⟩, hsh _⟩
  refine ⟨(allCells 2).foldl (blkStep 1 (fun M => if (2 : Int) = 2 then M.neg else M) bs)
    (Arr.zeros (2 * 1) (2 * 1)), _, _, ?_, p1, p2, ?_, ?_, ?_, ?_⟩
  · rw [PiPi_eq arg12_legal env _ (by norm_num)]
    refine (fillBlocks_iff (rdim_pos arg12_legal) (keepsShape_neg 2)).2 ⟨bs, ?_, ?_⟩
    · rw [arg12_rdim]
      have : arg12.states.length = 2 := by rw [arg12_states]; rfl
      rw [this]
      exact hbs
    · rw [arg12_rdim, arg12_states]; rfl
  · rw [one1_e]; exact mul_ne_zero (mul_ne_zero (by norm_num) (neg_ne_zero.2 r1)) n1
  · rw [one1_e]; exact mul_ne_zero (mul_ne_zero (by norm_num) (neg_ne_zero.2 r2)) n2
  · rw [foldl_blkStep_e (neg_scale 2) bs _ (allCells_nodup 2), if_pos (by rw [mem_allCells]; simp)]
    simp only [Nat.div_one, Nat.mod_one, b00]
    have : writesFrom bs (allCells 2) (0, 0) = 2 := rfl
    rw [this, one1_e]
    norm_num
  · rw [foldl_blkStep_e (neg_scale 2) bs _ (allCells_nodup 2), if_pos (by rw [mem_allCells]; simp)]
    simp only [Nat.div_one, Nat.mod_one, b11]
    have : writesFrom bs (allCells 2) (1, 1) = 1 := rfl
    rw [this, one1_e]
    norm_num

/-- Coefficients that meet the hypotheses of `C35_fails` (whose conclusion shows that the hypotheses
of `C35_partial` can be met). -/
example : ∃ env : XEnv, ∃ c1 c2 : ℝ, env.CG (1, 1, 2) (2, 1, 2) (1, 1, 2) = .ok c1 ∧
    env.CG (2, 1, 2) (2, 1, 2) (2, 1, 2) = .ok c2 ∧ c1 ≠ 0 ∧ c2 ≠ 0 ∧ LinAlgOk env.la := by
  obtain ⟨la, h⟩ := linAlg_exists
  exact ⟨⟨fun _ _ _ => .ok 1, la⟩, 1, 1, rfl, rfl, one_ne_zero, one_ne_zero, h⟩

/-! ## C36 -/

/-- C36 fails: on the two states (2, 1, 4) and (3, 1, 4), `[pi x q x pi]` raises `AttributeError`. -/
theorem C36_fails (env : XEnv) : RepXspace_PiqPi env lambda_acm_fun arg23 = .error .attributeError := by
  have l2 : lambda_acm_fun 2 = .ok 0 := by decide +kernel
  have l3 : lambda_acm_fun 3 = .ok 1 := by decide +kernel
  have s0 : arg23.states[0]? = some (2, 1, 4) := by rw [arg23_states]; rfl
  have s1 : arg23.states[1]? = some (3, 1, 4) := by rw [arg23_states]; rfl
  rw [PiqPi_eq arg23_legal]
  have hn : arg23.states.length = 2 := by rw [arg23_states]; rfl
  refine fillBlocks_error (rdim_pos arg23_legal) (fun _ => ⟨rfl, rfl⟩) (i := 1) (j := 0) (by omega) (by omega)
    s0 s1 l2 ?_ ?_
  · simp [piqpiBlock, l3, piqpiUp]
  · intro i j hi hj hb
    have : i = 0 ∧ j = 0 := by omega
    obtain ⟨rfl, rfl⟩ := this
    exact ⟨none, ⟨_, _, _, s0, s0, l2, by simp [piqpiBlock, l2]⟩, fun B hB => by cases hB⟩

/-- C36, the failure in general: there is no representation whenever the range has two states of
the same `L` whose seniorities differ by one. -/
theorem C36_never (env : XEnv) (lam : LambdaFunction) {a : XArgs} (h : LegalRanges a) {states : List Label}
    (hs : lbsSO5r3_rngVvarL a.v_min a.v_max a.L_min (some a.L_max) = .ok states) {s t : Label}
    (h1 : s ∈ states) (h2 : t ∈ states) (hL : t.2.2 = s.2.2) (hv : t.1 = s.1 + 1) :
    ∃ e, RepXspace_PiqPi env lam a = .error e := by
  cases hM : RepXspace_PiqPi env lam a with
  | error e => exact ⟨e, rfl⟩
  | ok M =>
    exfalso
    rw [states_ok h] at hs
    injection hs with hs
    subst hs
    rw [PiqPi_eq h] at hM
    obtain ⟨_, hb⟩ := (fillBlocks_id (rdim_pos h)).1 hM
    obtain ⟨j, hj⟩ := List.getElem?_of_mem h1
    obtain ⟨i, hi⟩ := List.getElem?_of_mem h2
    obtain ⟨b, ⟨init, fin, l, e1, e2, e3, e4⟩, _⟩ := hb i (List.getElem?_eq_some_iff.1 hi).1 j
      (List.getElem?_eq_some_iff.1 hj).1
    rw [hj] at e1
    rw [hi] at e2
    injection e1 with e1
    injection e2 with e2
    subst e1 e2
    obtain ⟨v, al, L⟩ := s
    obtain ⟨v', al', L'⟩ := t
    simp only at hL hv
    subst hL hv
    unfold piqpiBlock at e4
    simp only [ne_eq, not_true, if_false] at e4
    obtain ⟨l', _, e4⟩ := py_bind_eq_ok e4
    rw [if_neg (by omega), if_neg (by omega), if_pos (by omega)] at e4
    cases e4

/-- The two states (2,1,4) and (3,1,4) of this range meet the hypotheses. -/
example (env : XEnv) (lam : LambdaFunction) : ∃ e, RepXspace_PiqPi env lam ⟨1, 5 / 2, 0, 5, 2, 3, 4, 4⟩ = .error e :=
  C36_never env lam (by simp [LegalRanges]) (states := [(2, 1, 4), (3, 1, 4)]) (by decide +kernel)
    (s := (2, 1, 4)) (t := (3, 1, 4)) (by simp) (by simp) rfl rfl

/-- C36, the part that holds: when `[pi x q x pi]` has a representation, its elements are zero unless
`L` is conserved and the seniorities differ by three (or one).

What is missing: a representation for all ranges, see `C36_fails` and `C36_never`. -/
theorem C36_partial {env : XEnv} {lam : LambdaFunction} {a : XArgs} (h : LegalRanges a) {M : Arr}
    (hM : RepXspace_PiqPi env lam a = .ok M) {xs : List XspaceLabel}
    (hx : lbsXspace a.nu_min a.nu_max a.v_min a.v_max a.L_min (some a.L_max) = .ok xs) :
    Square xs.length M ∧ ∀ p q nu v al L nu' v' al' L', xs[q]? = some (nu, v, al, L) →
      xs[p]? = some (nu', v', al', L') → M.e p q ≠ 0 → L' = L ∧ (|v' - v| = 1 ∨ |v' - v| = 3) := by
  rw [lbsXspace_ok h] at hx
  injection hx with hx
  subst hx
  rw [PiqPi_eq h] at hM
  obtain ⟨sq, hb⟩ := (fillBlocks_id (rdim_pos h)).1 hM
  refine ⟨by rw [length_xlabels]; exact sq, ?_⟩
  intro p q nu v al L nu' v' al' L' hq hp h0
  obtain ⟨j, y, rfl, hy, hj, _⟩ := xlabels_split hq
  obtain ⟨i, x, rfl, hx, hi, _⟩ := xlabels_split hp
  obtain ⟨b, ⟨init, fin, l, e1, e2, e3, e4⟩, _, e5⟩ := hb i (List.getElem?_eq_some_iff.1 hi).1 j
    (List.getElem?_eq_some_iff.1 hj).1
  rw [hj] at e1
  rw [hi] at e2
  injection e1 with e1
  injection e2 with e2
  subst e1 e2
  rw [e5 x hx y hy] at h0
  by_contra hc
  have : b = none := by
    unfold piqpiBlock at e4
    simp only at e4
    by_cases hL : L' = L
    · subst hL
      simp only [ne_eq, not_true, if_false] at e4
      obtain ⟨l', _, e4⟩ := py_bind_eq_ok e4
      have hv : ¬ (|v' - v| = 1 ∨ |v' - v| = 3) := fun hv => hc ⟨rfl, hv⟩
      have g3 : v' - v ≠ 3 := fun e => hv (by rw [e]; right; rfl)
      have g4 : v' - v ≠ -3 := fun e => hv (by rw [e]; right; rfl)
      have g1 : v' - v ≠ 1 := fun e => hv (by rw [e]; left; rfl)
      have g2 : v' - v ≠ -1 := fun e => hv (by rw [e]; left; rfl)
      rw [if_neg g3, if_neg g4, if_neg g1, if_neg g2] at e4
      injection e4 with e4
      exact e4.symm
    · rw [if_pos hL] at e4
      injection e4 with e4
      exact e4.symm
  subst this
  exact h0 rfl

/-- C36: there is a representation when no two states of the range have the same `L` and seniorities that
differ by one or three. -/
theorem C36_exists {env : XEnv} {lam : LambdaFunction} {a : XArgs} (h : LegalRanges a) {states : List Label}
    (hs : lbsSO5r3_rngVvarL a.v_min a.v_max a.L_min (some a.L_max) = .ok states)
    (hl : ∀ s ∈ states, ∃ l, lam s.1 = .ok l)
    (hv : ∀ s ∈ states, ∀ t ∈ states, s.2.2 = t.2.2 → |t.1 - s.1| ≠ 1 ∧ |t.1 - s.1| ≠ 3) :
    ∃ M, RepXspace_PiqPi env lam a = .ok M := by
  rw [states_ok h] at hs
  injection hs with hs
  subst hs
  have hz : ∀ p q, (Arr.zeros (a.states.length * a.rdim) (a.states.length * a.rdim)).e p q = 0 := by
    intro p q; simp [Arr.zeros, Arr.of]
  refine ⟨Arr.zeros (a.states.length * a.rdim) (a.states.length * a.rdim), ?_⟩
  rw [PiqPi_eq h]
  refine (fillBlocks_id (rdim_pos h)).2 ⟨⟨rfl, rfl, fun p q _ => hz p q⟩, fun i hi j hj => ?_⟩
  refine ⟨none, ?_, (fun B hB => by cases hB), fun x _ y _ => hz _ _⟩
  obtain ⟨l, hl1⟩ := hl _ (List.getElem_mem hj)
  obtain ⟨l', hl2⟩ := hl _ (List.getElem_mem hi)
  refine ⟨a.states[j], a.states[i], l, List.getElem?_eq_getElem hj, List.getElem?_eq_getElem hi, hl1, ?_⟩
  unfold piqpiBlock
  simp only
  by_cases hL : a.states[i].2.2 = a.states[j].2.2
  · rw [if_neg (by rw [hL]; exact fun h => h rfl), hl2, py_bind_ok]
    obtain ⟨g1, g3⟩ := hv _ (List.getElem_mem hj) _ (List.getElem_mem hi) hL.symm
    rw [if_neg (fun e => g3 (by rw [e]; rfl)), if_neg (fun e => g3 (by rw [e]; rfl)),
      if_neg (fun e => g1 (by rw [e]; rfl)), if_neg (fun e => g1 (by rw [e]; rfl))]
    rfl
  · rw [if_pos hL]
    rfl

/-- The states `v = 4, L = 2..8` meet the hypotheses of `C36_exists`. -/
example : ∃ states, lbsSO5r3_rngVvarL 4 4 2 (some 8) = .ok states ∧ states.length = 5 ∧
    (∀ s ∈ states, ∃ l, lambda_acm_fun s.1 = .ok l) ∧
    ∀ s ∈ states, ∀ t ∈ states, s.2.2 = t.2.2 → |t.1 - s.1| ≠ 1 ∧ |t.1 - s.1| ≠ 3 := by
  refine ⟨[(4, 1, 2), (4, 1, 4), (4, 1, 5), (4, 1, 6), (4, 1, 8)], by decide +kernel, rfl, ?_, by decide⟩
  intro s hs
  refine ⟨0, ?_⟩
  revert s
  decide +kernel

end Acm.Props
