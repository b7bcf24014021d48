import Verif.Props.AllLevels

/-!
# All energies of the oscillator converge to the exact ones (C134)
-/

namespace Acm.Props

open Acm Acm.Spec

theorem Diag.levels {n : ℕ} {A : Matrix (Fin n) (Fin n) ℝ} {v : ℕ → ℝ} (h : Diag A v) (hA : A.transpose = A) : IsLevels A ((List.range n).map v) := by
  obtain ⟨Q, ho, he, hm⟩ := h
  constructor
  · let U : (Matrix (Fin n) (Fin n) ℝ)ˣ := ⟨Q, Q.transpose, mul_eq_one_comm.1 ho, ho⟩
    have hU : Q⁻¹ = Q.transpose := Matrix.inv_eq_left_inv ho
    have hch := Matrix.charpoly_units_conj' U A
    rw [show (↑U : Matrix (Fin n) (Fin n) ℝ) = Q from rfl, hU, he, Matrix.charpoly_diagonal] at hch
    rw [hA, ← two_smul ℝ A, smul_smul, show (1 / 2 * 2 : ℝ) = 1 by norm_num, one_smul, ← hch,
      Fin.prod_univ_eq_prod_range (fun i => Polynomial.X - Polynomial.C (v i)) n, List.map_map]
    rfl
  · rw [List.pairwise_map]
    refine List.Pairwise.imp_of_mem ?_ List.pairwise_lt_range
    intro i j _ hj hij
    exact hm i j hij.le (List.mem_range.1 hj)

/-- The levels for matched `lambda` are those of the truncated oscillators. -/
theorem osc_multiplets {a : XArgs} (h : LegalRanges a) (h0 : a.nu_min = 0) {env : XEnv} (hla : LinAlgOk env.la) {c11 c20 c21 c23 : ℝ}
    (h11 : c11 < 0) (ha : a.anorm ≠ 0) {s s' : FState} (hs : MemoOk env s.xs) {ls : Int → Int}
    (hl : ∀ v, a.v_min ≤ v → v ≤ a.v_max → s.glb.lam_fun v = .ok (ls v))
    (h1 : ∀ v, a.v_min ≤ v → v ≤ a.v_max → 1 < a.lambda_base + ls v)
    (hd : ∀ v : Int, a.v_min ≤ v → v ≤ a.v_max → (a.lambda_base + ls v - 1) ^ 2 = (v + 3 / 2) ^ 2 - c23 / c11)
    {P Q : ℝ} (hP : P ^ 2 = -c11 * a.anorm ^ 2) (hQ : Q ^ 2 = c21 / a.anorm ^ 2)
    {r : List LEig} (hr : DigXspace env (ACM_Hamiltonian (c11 := kC c11) (c20 := kC c20) (c21 := kC c21) (c23 := kC c23)) a s = (.ok r, s')) :
    ∃ w : Int → ℕ → ℝ, (∀ v, Diag (oscTrunc (a.lambda_base + ls v) P Q (a.nu_max.toNat + 1)) (w v)) ∧
      ∀ x ∈ r, x.vals.Perm ((labelsV a.v_min a.v_max x.L x.L).flatMap fun f => (List.range (a.nu_max.toNat + 1)).map fun j => w f.1 j + c20) ∧
        x.vals.Pairwise (· ≤ ·) := by
  choose w hw using fun v => diag_exists hla (oscTrunc_symm (a.lambda_base + ls v) P Q (a.nu_max.toNat + 1))
  refine ⟨w, hw, fun x hx => ?_⟩
  have ht' : Op_Tame (ACM_Hamiltonian (c11 := kC c11) (c20 := kC c20) (c21 := kC c21) (c22 := kC 0) (c23 := kC c23)) = true :=
    gammaFree_tame (C130_acm c11 c20 c21 0 c23)
  obtain ⟨ho, hx'⟩ := C32_partial ht' h hs hr
  obtain ⟨_, M, v, m1, m2, m3⟩ := hx' x hx
  have hL : 0 ≤ x.L := by
    have := ((ho.2 x.L).1 (List.mem_map_of_mem hx)).1; have := h.2.2.1; omega
  have hle := legal_at h hL
  obtain ⟨M', hM', hsq, hMe⟩ := radHam_matrix hle hla (env := env) (lam := s.glb.lam_fun) (ls := ls) ha hl
    (fun v k1 k2 => lt_trans one_pos (h1 v k1 k2)) (fun v k1 k2 => (h1 v k1 k2).ne') (kC c11) (kC c20) (kC c21) (kC 0) (kC c23)
  have hMM : M = M' := by
    rw [rep_eq hle hs] at m1
    have := m1.symm.trans hM'
    injection this
  subst hMM
  have hN : (a.at x.L).rdim = a.nu_max.toNat + 1 := by
    have := h.1.2
    show (a.nu_max - a.nu_min + 1).toNat = _
    omega
  have hsq' : Square ((a.at x.L).states.length * (a.nu_max.toNat + 1)) M := by rw [← hN]; exact hsq
  rw [m3]
  refine eig_blocks hla (a.at x.L).states hsq' (fun v => oscTrunc (a.lambda_base + ls v) P Q (a.nu_max.toNat + 1) + c20 • 1) (fun i j p q => ?_) m2
    (fun v => (List.range (a.nu_max.toNat + 1)).map fun j => w v j + c20)
    fun v => ((hw v).shift c20).levels (by rw [Matrix.transpose_add, oscTrunc_symm, Matrix.transpose_smul, Matrix.transpose_one])
  have xl : ∀ (i : Fin (a.at x.L).states.length) (p : Fin (a.nu_max.toNat + 1)),
      (a.at x.L).xlabels[i * (a.nu_max.toNat + 1) + p]? = some (((p : ℕ) : Int), (a.at x.L).states.get i) := fun i p => by
    have hg := getElem?_xlabels (a.at x.L) i p (by rw [hN]; exact p.2)
    rw [hN] at hg
    rw [hg, List.getElem?_eq_getElem i.2]
    show some (a.nu_min + ((p : ℕ) : Int), _) = _
    rw [h0, zero_add]
    rfl
  rw [hMe _ _ _ _ (xl i p) (xl j q)]
  have hv := state_v (a := a.at x.L) (List.get_mem (a.at x.L).states j)
  by_cases hij : i = j
  · subst hij
    rw [if_pos rfl, if_pos rfl]
    refine Eq.trans ?_ ((radHam_osc (c20 := c20) h11.ne hP hQ (hd _ hv.1 hv.2) a.nu_min.toNat a.nu_max.toNat p q).trans ?_)
    · rfl
    · rw [Matrix.add_apply, Matrix.smul_apply, Matrix.one_apply, smul_eq_mul, add_comm]
      simp only [Fin.ext_iff]
      rfl
  · rw [if_neg hij, if_neg]
    intro e
    exact hij ((states_nodup (a.at x.L)).injective_get e)

theorem sorted_get {p : ℝ → Bool} (hp : ∀ x y, x ≤ y → p y = true → p x = true) {xs : List ℝ} (hs : xs.Pairwise (· ≤ ·)) {k : ℕ} {e : ℝ}
    (he : xs[k]? = some e) (hc : k + 1 ≤ xs.countP p) : p e = true := by
  by_contra hn
  obtain ⟨hk, hke⟩ := List.getElem?_eq_some_iff.1 he
  rw [← List.take_append_drop k xs, List.countP_append] at hc
  have h1 : (xs.take k).countP p ≤ k := List.countP_le_length.trans (List.length_take_le _ _)
  have h2 : (xs.drop k).countP p = 0 := by
    rw [List.countP_eq_zero]
    intro y hy hpy
    obtain ⟨i, hi, rfl⟩ := List.getElem_of_mem hy
    rw [List.getElem_drop] at hpy
    rw [List.length_drop] at hi
    refine hn (hp _ _ ?_ hpy)
    rw [← hke]
    rcases Nat.eq_zero_or_pos i with rfl | h0
    · exact le_refl _
    · exact List.pairwise_iff_getElem.1 hs k (k + i) hk (by omega) (by omega)
  omega

theorem sorted_count {xs : List ℝ} (hs : xs.Pairwise (· ≤ ·)) {k : ℕ} {e : ℝ} (he : xs[k]? = some e) :
    k + 1 ≤ xs.countP fun x => decide (x ≤ e) := by
  obtain ⟨hk, hke⟩ := List.getElem?_eq_some_iff.1 he
  rw [← List.take_append_drop (k + 1) xs, List.countP_append]
  have : (xs.take (k + 1)).countP (fun x => decide (x ≤ e)) = (xs.take (k + 1)).length := by
    rw [List.countP_eq_length]
    intro y hy
    obtain ⟨i, hi, rfl⟩ := List.getElem_of_mem hy
    rw [List.length_take] at hi
    rw [List.getElem_take, decide_eq_true_eq, ← hke]
    rcases Nat.lt_or_ge i k with h0 | h0
    · exact List.pairwise_iff_getElem.1 hs i k (by omega) hk h0
    · have : i = k := by omega
      subst this
      exact le_refl _
  rw [this, List.length_take]
  omega

/-- Merging sorted sequences: from below. -/
theorem merge_lower {states : List Label} {p q : Label → ℕ → ℝ} {m k : ℕ} (hkm : k < m) (hpq : ∀ f ∈ states, ∀ j < m, q f j ≤ p f j)
    (hq : ∀ f ∈ states, ∀ i j, i ≤ j → q f i ≤ q f j) {xs ys : List ℝ} (hx : xs.Perm (states.flatMap fun f => (List.range m).map (p f)))
    (hxs : xs.Pairwise (· ≤ ·)) (hy : ys.Perm (states.flatMap fun f => (List.range (k + 1)).map (q f))) (hys : ys.Pairwise (· ≤ ·))
    {e y : ℝ} (he : xs[k]? = some e) (hyk : ys[k]? = some y) : y ≤ e := by
  have h1 := sorted_count hxs he
  rw [hx.countP_eq, List.countP_flatMap] at h1
  refine of_decide_eq_true (sorted_get (p := fun x => decide (x ≤ e)) (fun x y hxy h => by
    rw [decide_eq_true_eq] at h ⊢; exact hxy.trans h) hys hyk ?_)
  rw [hy.countP_eq, List.countP_flatMap]
  by_cases hbig : ∃ f ∈ states, ∃ j < m, k ≤ j ∧ p f j ≤ e
  · obtain ⟨f, hf, j, hjm, hkj, hje⟩ := hbig
    refine le_trans ?_ (List.single_le_sum (fun _ _ => Nat.zero_le _) _ (List.mem_map_of_mem hf))
    have : ((List.range (k + 1)).map (q f)).countP (fun x => decide (x ≤ e)) = ((List.range (k + 1)).map (q f)).length := by
      rw [List.countP_eq_length]
      intro x hx
      obtain ⟨i, hi, rfl⟩ := List.mem_map.1 hx
      have hi := List.mem_range.1 hi
      rw [decide_eq_true_eq]
      exact ((hq f hf i j (by omega)).trans (hpq f hf j hjm)).trans hje
    show k + 1 ≤ ((List.range (k + 1)).map (q f)).countP (fun x => decide (x ≤ e))
    rw [this]
    simp
  · push Not at hbig
    refine h1.trans (List.sum_le_sum fun f hf => ?_)
    show ((List.range m).map (p f)).countP _ ≤ ((List.range (k + 1)).map (q f)).countP _
    have hm : List.range m = List.range k ++ (List.range (m - k)).map (k + ·) := by
      rw [← List.range_add]
      congr 1
      omega
    rw [List.range_succ, List.map_append, List.countP_append, hm, List.map_append, List.countP_append]
    have z1 : (((List.range (m - k)).map (k + ·)).map (p f)).countP (fun x => decide (x ≤ e)) = 0 := by
      rw [List.countP_eq_zero]
      intro x hx hxe
      rw [List.map_map] at hx
      obtain ⟨i, hi, rfl⟩ := List.mem_map.1 hx
      have hi := List.mem_range.1 hi
      exact absurd (of_decide_eq_true hxe) (not_le.2 (hbig f hf (k + i) (by omega) (by omega)))
    rw [z1, add_zero]
    refine le_trans ?_ (Nat.le_add_right _ _)
    rw [List.countP_map, List.countP_map]
    refine List.countP_mono_left fun i hi hh => ?_
    have hi := List.mem_range.1 hi
    simp only [Function.comp, decide_eq_true_eq] at hh ⊢
    exact (hpq f hf i (by omega)).trans hh

/-- Merging sorted sequences: from above. -/
theorem merge_upper {states : List Label} {p q : Label → ℕ → ℝ} {m k : ℕ} (hkm : k < m) {ε : ℝ}
    (hpq : ∀ f ∈ states, ∀ j ≤ k, p f j < q f j + ε) {xs ys : List ℝ}
    (hx : xs.Perm (states.flatMap fun f => (List.range m).map (p f)))
    (hxs : xs.Pairwise (· ≤ ·)) (hy : ys.Perm (states.flatMap fun f => (List.range (k + 1)).map (q f))) (hys : ys.Pairwise (· ≤ ·))
    {e y : ℝ} (he : xs[k]? = some e) (hyk : ys[k]? = some y) : e < y + ε := by
  have h1 := sorted_count hys hyk
  rw [hy.countP_eq, List.countP_flatMap] at h1
  refine of_decide_eq_true (sorted_get (p := fun x => decide (x < y + ε)) (fun x z hxz h => by
    rw [decide_eq_true_eq] at h ⊢; exact hxz.trans_lt h) hxs he ?_)
  rw [hx.countP_eq, List.countP_flatMap]
  refine h1.trans (List.sum_le_sum fun f hf => ?_)
  show ((List.range (k + 1)).map (q f)).countP _ ≤ ((List.range m).map (p f)).countP _
  have hm : List.range m = List.range (k + 1) ++ (List.range (m - (k + 1))).map (k + 1 + ·) := by
    rw [← List.range_add]
    congr 1
    omega
  rw [hm, List.map_append, List.countP_append]
  refine le_trans ?_ (Nat.le_add_right _ _)
  rw [List.countP_map, List.countP_map]
  refine List.countP_mono_left fun i hi hh => ?_
  have hi := List.mem_range.1 hi
  simp only [Function.comp, decide_eq_true_eq] at hh ⊢
  exact (hpq f hf i (by omega)).trans_le (by linarith)

/-- C134: all energies converge to the exact ones, whatever the width.  For `c11 < 0`, `c21 > 0`, any `c20` and `c23`, with
lambdas of the basis that are matched to the Hamiltonian, `(lambda_v - 1)^2 = (v + 3/2)^2 - c23 / c11`, but with any width, and with `nu` from
0: the `k`-th energy (from 0) that is reported for `L` tends, when `nu_max` grows and all else is kept, to the `k`-th in the ordered list
of the exact energies `c20 + 2 sqrt(-c11 c21) (lambda_v + 2 nu)` of the labels `(nu, v, alpha, L)` with `nu ≤ k`, and is never below it.  By
C95 these are the energies that are reported in the matched basis. -/
theorem C134_levels {a : XArgs} (h : LegalRanges a) (h0 : a.nu_min = 0) {env : XEnv} (hla : LinAlgOk env.la) {c11 c20 c21 c23 : ℝ}
    (h11 : c11 < 0) (h21 : 0 < c21) (ha : a.anorm ≠ 0) {lam : LambdaFunction} {ls : Int → Int}
    (hl : ∀ v, a.v_min ≤ v → v ≤ a.v_max → lam v = .ok (ls v))
    (h1 : ∀ v, a.v_min ≤ v → v ≤ a.v_max → 1 < a.lambda_base + ls v)
    (hd : ∀ v : Int, a.v_min ≤ v → v ≤ a.v_max → (a.lambda_base + ls v - 1) ^ 2 = (v + 3 / 2) ^ 2 - c23 / c11)
    {L : Int} (hL : a.L_min ≤ L ∧ L ≤ a.L_max) {k : ℕ} {labels : List XspaceLabel}
    (hlab : lbsXspace 0 k a.v_min a.v_max L (some L) = .ok labels) (hne : labels ≠ []) {ys : List ℝ}
    (hys : IsSpectrum (fun x => c20 + 2 * √(-c11 * c21) * (a.lambda_base + ls x.2.1 + 2 * x.1)) labels ys) :
    ∃ y, ys[k]? = some y ∧ ∀ ε : ℝ, 0 < ε → ∃ N : Int, ∀ n, N ≤ n → ∀ s : FState, MemoOk env s.xs → s.glb.lam_fun = lam →
      ∃ r s', DigXspace env (ACM_Hamiltonian (c11 := kC c11) (c20 := kC c20) (c21 := kC c21) (c23 := kC c23))
          { a with nu_max := n } s = (.ok r, s') ∧
        ∃ x ∈ r, x.L = L ∧ ∃ e, x.vals[k]? = some e ∧ y ≤ e ∧ e < y + ε := by
  have hL0 : 0 ≤ L := le_trans h.2.2.1 hL.1
  set states := labelsV a.v_min a.v_max L L with hst
  have hlabels : labels = states.flatMap fun f => (List.range (k + 1)).map fun j : ℕ => ((j : Int), f) := by
    have := lbsXspace_ok (a := ⟨1, 1, 0, k, a.v_min, a.v_max, L, L⟩) ⟨⟨le_refl _, Int.natCast_nonneg k⟩, h.2.1, hL0, le_refl _⟩
    have := hlab.symm.trans this
    injection this with this
    rw [this]
    unfold XArgs.xlabels lbsRadial pyRange
    simp only [List.map_map]
    rw [show ((k : Int) + 1 - 0).toNat = k + 1 by omega]
    refine congrArg (fun g => List.flatMap g states) (funext fun f => List.map_congr_left fun j _ => ?_)
    simp
  have hsne : states ≠ [] := by
    rintro e
    rw [e] at hlabels
    exact hne hlabels
  have hysp : ys.Perm (states.flatMap fun f => (List.range (k + 1)).map fun j : ℕ =>
      c20 + 2 * √(-c11 * c21) * (a.lambda_base + ls f.1 + 2 * (j : ℝ))) := by
    refine hys.1.trans (List.Perm.of_eq ?_)
    rw [hlabels, List.map_flatMap]
    refine congrArg (fun g => List.flatMap g states) (funext fun f => ?_)
    rw [List.map_map]
    exact List.map_congr_left fun j _ => by simp
  have hylen : k < ys.length := by
    rw [hysp.length_eq, List.length_flatMap]
    obtain ⟨f, hf⟩ := List.exists_mem_of_ne_nil _ hsne
    refine lt_of_lt_of_le (Nat.lt_succ_self k) (le_trans ?_ (List.single_le_sum (fun _ _ => Nat.zero_le _) _ (List.mem_map_of_mem hf)))
    simp
  refine ⟨ys[k], List.getElem?_eq_getElem hylen, fun ε hε => ?_⟩
  obtain ⟨E, _, hE⟩ := C132_converges (mu := fun v => a.lambda_base + ls v) (c20 := c20) h hla h11 h21.le ha hl h1 hd hL
    (lbsSO5r3_rngV_ok h.2.1.1 h.2.1.2 hL0) hsne k
  obtain ⟨N0, hN0⟩ := hE 1 one_pos
  have ha' : 0 < |a.anorm| := abs_pos.2 ha
  set P := √(-c11) * |a.anorm| with hPdef
  set Q := √c21 / |a.anorm| with hQdef
  have hP0 : 0 < P := mul_pos (Real.sqrt_pos.2 (by linarith)) ha'
  have hQ0 : 0 < Q := div_pos (Real.sqrt_pos.2 h21) ha'
  have hP : P ^ 2 = -c11 * a.anorm ^ 2 := by rw [hPdef, mul_pow, Real.sq_sqrt (by linarith), sq_abs]
  have hQ : Q ^ 2 = c21 / a.anorm ^ 2 := by rw [hQdef, div_pow, Real.sq_sqrt h21.le, sq_abs]
  have hPQ : P * Q = √(-c11 * c21) := by
    rw [hPdef, hQdef, Real.sqrt_mul (by linarith)]
    field_simp
  have hv : ∀ f ∈ states, a.v_min ≤ f.1 ∧ f.1 ≤ a.v_max := fun f hf => state_v (a := a.at L) hf
  have hev : ∀ᶠ m : ℕ in Filter.atTop, ∀ f ∈ states.toFinset, ∀ v, Diag (oscTrunc (a.lambda_base + ls f.1) P Q m) v →
      ∀ j ≤ k, v j < 2 * P * Q * (a.lambda_base + ls f.1 + 2 * j) + ε := by
    rw [Filter.eventually_all_finset]
    intro f hf
    have := hv f (List.mem_toFinset.1 hf)
    exact osc_upper (lt_trans one_pos (h1 f.1 this.1 this.2)) hP0 hQ0 k hε
  obtain ⟨N1, hN1⟩ := Filter.eventually_atTop.1 hev
  refine ⟨max (max N0 N1) k, fun n hn s hs hs2 => ?_⟩
  have hn0 : N0 ≤ n := le_trans (le_max_left _ _) (le_trans (le_max_left _ _) hn)
  have hn1 : (N1 : Int) ≤ n := le_trans (le_max_right _ _) (le_trans (le_max_left _ _) hn)
  have hn2 : (k : Int) ≤ n := le_trans (le_max_right _ _) hn
  obtain ⟨r, s', hr, x, hx, hxL, e, he, _⟩ := hN0 n hn0 s hs hs2
  refine ⟨r, s', hr, x, hx, hxL, e, he, ?_⟩
  obtain ⟨w, hw, hm⟩ := osc_multiplets (a := { a with nu_max := n }) ⟨⟨h.1.1, show a.nu_min ≤ n by rw [h0]; omega⟩, h.2⟩ h0 hla h11 ha hs (ls := ls)
    (by rw [hs2]; exact hl) h1 hd hP hQ hr
  obtain ⟨hperm, hsort⟩ := hm x hx
  rw [hxL] at hperm
  constructor
  · refine merge_lower (m := n.toNat + 1) (by omega) (fun f hf j hj => ?_) (fun f hf i j hij => ?_) hperm hsort hysp hys.2 he
      (List.getElem?_eq_getElem hylen)
    · have := osc_lower hla j (lt_trans one_pos (h1 f.1 (hv f hf).1 (hv f hf).2)) (hw f.1) hj
      rw [mul_assoc 2, hPQ] at this
      linarith
    · have h5 : (i : ℝ) ≤ j := by exact_mod_cast hij
      have h6 := mul_le_mul_of_nonneg_left h5 (Real.sqrt_nonneg (-c11 * c21))
      show c20 + 2 * √(-c11 * c21) * (a.lambda_base + ls f.1 + 2 * (i : ℝ)) ≤ c20 + 2 * √(-c11 * c21) * (a.lambda_base + ls f.1 + 2 * (j : ℝ))
      nlinarith
  · refine merge_upper (m := n.toNat + 1) (by omega) (fun f hf j hj => ?_) hperm hsort hysp hys.2 he (List.getElem?_eq_getElem hylen)
    have := hN1 (n.toNat + 1) (by omega) f (List.mem_toFinset.2 hf) _ (hw f.1) j hj
    rw [mul_assoc 2, hPQ] at this
    linarith

/-- Five dimensional oscillator in a basis of a wrong width: the second energy for `L = 2` tends to that of `nu = 0`, `v = 2`. -/
example (env : XEnv) (hla : LinAlgOk env.la) {ε : ℝ} (hε : 0 < ε) : ∃ N : Int, ∀ n, N ≤ n →
    ∀ s : FState, MemoOk env s.xs → s.glb.lam_fun = lambda_sho_fun →
      ∃ r s', DigXspace env (ACM_Hamiltonian (c11 := kC (-1 / 2)) (c20 := kC 3) (c21 := kC (1 / 2)) (c23 := kC 0))
          ⟨3, 5 / 2, 0, n, 0, 2, 0, 4⟩ s = (.ok r, s') ∧
        ∃ x ∈ r, x.L = 2 ∧ ∃ e, x.vals[1]? = some e ∧ 15 / 2 ≤ e ∧ e < 15 / 2 + ε := by
  have hq : √(-(-1 / 2) * (1 / 2) : ℝ) = 1 / 2 := by
    rw [show (-(-1 / 2) * (1 / 2) : ℝ) = (1 / 2) ^ 2 by norm_num]
    exact Real.sqrt_sq (by norm_num)
  have hlab : lbsXspace 0 ((1 : ℕ) : Int) 0 2 2 (some 2) = .ok [(0, 1, 1, 2), (1, 1, 1, 2), (0, 2, 1, 2), (1, 2, 1, 2)] := by decide +kernel
  obtain ⟨y, hy, hN⟩ := C134_levels (a := ⟨3, 5 / 2, 0, 10, 0, 2, 0, 4⟩) (by unfold LegalRanges; simp) rfl hla (c11 := -1 / 2) (c20 := 3) (c21 := 1 / 2)
    (c23 := 0) (by norm_num) (by norm_num) (by norm_num) (lam := lambda_sho_fun) (ls := fun v => v)
    (fun v h1 _ => by
      unfold lambda_sho_fun
      rw [require_nonnegint_ok h1]
      rfl)
    (fun v h1 _ => by
      have : (0 : ℝ) ≤ v := by exact_mod_cast h1
      show (1 : ℝ) < 5 / 2 + v
      linarith)
    (fun v _ _ => by
      show (5 / 2 + (v : ℝ) - 1) ^ 2 = _
      ring)
    (L := 2) (by simp) (k := 1) hlab (by simp) (ys := [13 / 2, 15 / 2, 17 / 2, 19 / 2]) ⟨by
      rw [hq]
      refine List.Perm.trans (l₂ := [13 / 2, 17 / 2, 15 / 2, 19 / 2]) (List.Perm.cons _ (List.Perm.swap _ _ _)) (List.Perm.of_eq ?_)
      norm_num, by
      simp only [List.pairwise_cons, List.mem_cons, List.not_mem_nil, or_false, forall_eq_or_imp, forall_eq, List.Pairwise.nil, and_true]
      norm_num⟩
  have hy' : (15 / 2 : ℝ) = y := by simpa using hy
  subst hy'
  exact hN ε hε

end Acm.Props
