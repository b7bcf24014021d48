import Verif.Lemmas.RadialProd
import Verif.Spec.Radial
import Mathlib.Tactic.LinearCombination

/-!
# Windows of products
-/

namespace Acm

open Acm.Spec

theorem windowProd_append {lo hi : ℕ} (gs hs : List (ℕ → ℕ → ℝ)) (i j : ℕ)
    (hi' : i ∈ Finset.Icc lo hi) :
    windowProd lo hi (gs ++ hs) i j
      = ∑ k ∈ Finset.Icc lo hi, windowProd lo hi gs i k * windowProd lo hi hs k j := by
  induction gs generalizing i with
  | nil => simp [windowProd, opId, hi']
  | cons g gs ih =>
    simp only [List.cons_append, windowProd]
    rw [Finset.sum_congr rfl fun k hk => by rw [ih k hk, Finset.mul_sum], Finset.sum_comm]
    refine Finset.sum_congr rfl fun k _ => ?_
    rw [Finset.sum_mul]
    refine Finset.sum_congr rfl fun l _ => by ring

theorem sum_Icc_range (lo hi : ℕ) (f : ℕ → ℝ) :
    ∑ k ∈ Finset.Icc lo hi, f k = ∑ k ∈ Finset.range (hi + 1 - lo), f (lo + k) := by
  have : Finset.Icc lo hi = Finset.Ico lo (hi + 1) := by
    ext k; simp only [Finset.mem_Ico, Finset.mem_Icc]; omega
  rw [this, Finset.sum_Ico_eq_sum_range]

theorem ofM_ok {n m : ℕ} {f : ℕ → ℕ → Py ℝ} {A : Arr} (h : Arr.ofM n m f = .ok A) :
    A.rows = n ∧ A.cols = m ∧ (∀ i < n, ∀ j < m, f i j = .ok (A.e i j)) ∧
      ∀ i j, ¬ (i < n ∧ j < m) → A.e i j = 0 := by
  unfold Arr.ofM at h
  split_ifs at h with hc
  · simp only [py_pure] at h
    injection h with h
    subst h
    refine ⟨rfl, rfl, ?_, ?_⟩
    · intro i hi j hj
      obtain ⟨x, hx⟩ := hc i hi j hj
      simp only [Arr.of, hi, hj, and_self, if_true, hx]
    · intro i j hij
      simp only [Arr.of]
      rw [if_neg hij]

theorem ofM_eq {n m : ℕ} {f : ℕ → ℕ → Py ℝ} {g : ℕ → ℕ → ℝ}
    (h : ∀ i < n, ∀ j < m, f i j = .ok (g i j)) : Arr.ofM n m f = .ok (Arr.of n m g) := by
  unfold Arr.ofM
  rw [if_pos (fun i hi j hj => ⟨_, h i hi j hj⟩)]
  simp only [py_pure]
  congr 1
  unfold Arr.of
  congr 1
  funext i j
  by_cases hc : i < n ∧ j < m
  · rw [if_pos hc, if_pos hc]
    beta_reduce
    rw [h i hc.1 j hc.2]
  · rw [if_neg hc, if_neg hc]

theorem square_mul {n : ℕ} {A B : Arr} (h1 : A.rows = n) (h2 : B.cols = n) :
    Square n (A.mul B) := by
  refine ⟨h1, h2, fun i j hij => ?_⟩
  simp only [Arr.mul, Arr.of, h1, h2]
  rw [if_neg hij]

theorem sqrt_shape {la : LinAlg} (hla : LinAlgOk la) {A B : Arr} {n : ℕ} (hr : A.rows = n)
    (hc : A.cols = n) (h : Matrix_sqrt la A = .ok B) : Square n B := by
  unfold Matrix_sqrt Eigenfiddle at h
  rw [if_neg (by rw [hr, hc]; simp)] at h
  simp only [py_pure, py_bind_ok] at h
  split_ifs at h with hp
  · injection h with h
    subst h
    have s := hla.eigh_shape n (Arr.of A.rows A.cols fun i j => (A.e i j + A.T.e i j) / 2)
      (by simp [Arr.of, hr]) (by simp [Arr.of, hc])
    have s2 := hla.inv_shape n _ s.1 s.2
    exact square_mul s.1 s2.2

theorem sqrtInv_shape {la : LinAlg} (hla : LinAlgOk la) {A B : Arr} {n : ℕ} (hr : A.rows = n)
    (hc : A.cols = n) (h : Matrix_sqrtInv la A = .ok B) : Square n B := by
  unfold Matrix_sqrtInv Eigenfiddle at h
  rw [if_neg (by rw [hr, hc]; simp)] at h
  simp only [py_pure, py_bind_ok] at h
  split_ifs at h with hp
  · injection h with h
    subst h
    have s := hla.eigh_shape n (Arr.of A.rows A.cols fun i j => (A.e i j + A.T.e i j) / 2)
      (by simp [Arr.of, hr]) (by simp [Arr.of, hc])
    have s2 := hla.inv_shape n _ s.1 s.2
    exact square_mul s.1 s2.2

theorem RepRadial_ok {ME : ℝ → ℕ → ℕ → Py ℝ} {lam : ℝ} {lo hi : ℕ} {A : Arr}
    (h : RepRadial ME lam lo hi = .ok A) :
    Square (hi + 1 - lo) A ∧ ∀ i < hi + 1 - lo, ∀ j < hi + 1 - lo,
      ME lam (lo + i) (lo + j) = .ok (A.e i j) := by
  unfold RepRadial at h
  simp only at h
  rw [show ((hi : Int) - lo + 1).toNat = hi + 1 - lo by omega] at h
  obtain ⟨a, b, c, d⟩ := ofM_ok h
  exact ⟨⟨a, b, d⟩, c⟩

theorem RepRadial_param_ok {ME : ℝ → ℕ → ℕ → ℕ → Py ℝ} {lam : ℝ} {lo hi r : ℕ} {A : Arr}
    (h : RepRadial_param ME lam lo hi r = .ok A) :
    Square (hi + 1 - lo) A ∧ ∀ i < hi + 1 - lo, ∀ j < hi + 1 - lo,
      ME lam (lo + i) (lo + j) r = .ok (A.e i j) := by
  unfold RepRadial_param at h
  simp only at h
  rw [show ((hi : Int) - lo + 1).toNat = hi + 1 - lo by omega] at h
  obtain ⟨a, b, c, d⟩ := ofM_ok h
  exact ⟨⟨a, b, d⟩, c⟩

/-- The label function of an array. -/
def labelFn (lo : ℕ) (A : Arr) (i j : ℕ) : ℝ := A.e (i - lo) (j - lo)

/-- The value of a formal product on `lo..hi`. -/
theorem denotes_window {la : LinAlg} (hla : LinAlgOk la) {anorm : ℝ} (ha : anorm ≠ 0) {lo hi : ℕ}
    {p : FormalProd ℝ} {z : Arr} (h : Denotes (radMat la anorm lo hi) p z) :
    Square (hi + 1 - lo) z ∧ ∃ gs, List.Forall₂ (PrimElement la lo hi) p.factors gs ∧
      ∀ i < hi + 1 - lo, ∀ j < hi + 1 - lo,
        z.e i j = anorm ^ p.expo * windowProd lo hi gs (lo + i) (lo + j) := by
  have single : ∀ (A : Arr) (i j : ℕ), i < hi + 1 - lo → j < hi + 1 - lo →
      A.e i j = anorm ^ (0 : Int) * windowProd lo hi [labelFn lo A] (lo + i) (lo + j) := by
    intro A i j hi' hj
    simp only [windowProd, opId, labelFn, mul_ite, mul_one, mul_zero, zpow_zero, one_mul,
      Finset.sum_ite_eq']
    rw [if_pos (by rw [Finset.mem_Icc]; omega)]
    simp
  induction h with
  | @rep m lam y h =>
    obtain ⟨s, e⟩ := RepRadial_ok (h : RepRadial m.fn lam lo hi = .ok y)
    refine ⟨s, [labelFn lo y], ?_, fun i hi' j hj => single _ _ _ hi' hj⟩
    refine List.Forall₂.cons ?_ List.Forall₂.nil
    intro i hi' j hj
    rw [Finset.mem_Icc] at hi' hj
    have := e (i - lo) (by omega) (j - lo) (by omega)
    rwa [Nat.add_sub_cancel' hi'.1, Nat.add_sub_cancel' hj.1] at this
  | @id_pl lam r y h =>
    obtain ⟨s, e⟩ := RepRadial_param_ok
      (h : RepRadial_param ME_Radial_id_pl lam lo hi r.toNat = .ok y)
    refine ⟨s, [labelFn lo y], ?_, fun i hi' j hj => single _ _ _ hi' hj⟩
    refine List.Forall₂.cons ?_ List.Forall₂.nil
    intro i hi' j hj
    rw [Finset.mem_Icc] at hi' hj
    have := e (i - lo) (by omega) (j - lo) (by omega)
    rwa [Nat.add_sub_cancel' hi'.1, Nat.add_sub_cancel' hj.1] at this
  | @id_ml lam r y h =>
    obtain ⟨s, e⟩ := RepRadial_param_ok
      (h : RepRadial_param ME_Radial_id_ml lam lo hi r.toNat = .ok y)
    refine ⟨s, [labelFn lo y], ?_, fun i hi' j hj => single _ _ _ hi' hj⟩
    refine List.Forall₂.cons ?_ List.Forall₂.nil
    intro i hi' j hj
    rw [Finset.mem_Icc] at hi' hj
    have := e (i - lo) (by omega) (j - lo) (by omega)
    rwa [Nat.add_sub_cancel' hi'.1, Nat.add_sub_cancel' hj.1] at this
  | @b2_sqrt lam y h =>
    have h' : RepRadial_b2_sqrt la lam lo hi = .ok y := h
    have s : Square (hi + 1 - lo) y := by
      have h2 := h'
      unfold RepRadial_b2_sqrt at h2
      split_ifs at h2
      obtain ⟨_, _, h2⟩ := py_bind_eq_ok h2
      obtain ⟨Mt, h3, h2⟩ := py_bind_eq_ok h2
      obtain ⟨⟨s1, s2, _⟩, _⟩ := RepRadial_ok h3
      exact sqrt_shape hla s1 s2 h2
    refine ⟨s, [labelFn lo y], ?_, fun i hi' j hj => single _ _ _ hi' hj⟩
    refine List.Forall₂.cons ⟨y, h', ?_⟩ List.Forall₂.nil
    intro i j hi' hj
    simp [labelFn]
  | @b2_sqrtInv lam y h =>
    have h' : RepRadial_b2_sqrtInv la lam lo hi = .ok y := h
    have s : Square (hi + 1 - lo) y := by
      have h2 := h'
      unfold RepRadial_b2_sqrtInv at h2
      obtain ⟨Mt, h3, h2⟩ := py_bind_eq_ok h2
      obtain ⟨⟨s1, s2, _⟩, _⟩ := RepRadial_ok h3
      exact sqrtInv_shape hla s1 s2 h2
    refine ⟨s, [labelFn lo y], ?_, fun i hi' j hj => single _ _ _ hi' hj⟩
    refine List.Forall₂.cons ⟨y, h', ?_⟩ List.Forall₂.nil
    intro i j hi' hj
    simp [labelFn]
  | @mul p q y z hy hz ihy ihz =>
    obtain ⟨⟨sy1, sy2, sy3⟩, gs, fg, eg⟩ := ihy
    obtain ⟨⟨sz1, sz2, sz3⟩, hs, fh, eh⟩ := ihz
    refine ⟨⟨by simp [radMat, Arr.mul, Arr.of, sy1], by simp [radMat, Arr.mul, Arr.of, sz2], ?_⟩,
      gs ++ hs, List.rel_append fg fh, ?_⟩
    · intro i j hij
      simp only [radMat, Arr.mul, Arr.of, sy1, sz2]
      rw [if_neg hij]
    · intro i hi' j hj
      simp only [radMat, Arr.mul, Arr.of, sy1, sz2, sy2]
      rw [if_pos ⟨hi', hj⟩, windowProd_append _ _ _ _ (by rw [Finset.mem_Icc]; omega),
        sum_Icc_range _ _, zpow_add₀ ha, Finset.mul_sum]
      refine Finset.sum_congr rfl fun k hk => ?_
      rw [Finset.mem_range] at hk
      rw [eg i hi' k hk, eh k hk j hj]
      ring
  | @scale p y k hy ihy =>
    obtain ⟨⟨sy1, sy2, sy3⟩, gs, fg, eg⟩ := ihy
    refine ⟨⟨by simp [radMat, Arr.smul, Arr.of, sy1], by simp [radMat, Arr.smul, Arr.of, sy2], ?_⟩,
      gs, fg, ?_⟩
    · intro i j hij
      simp only [radMat, Arr.smul, Arr.of, sy1, sy2]
      rw [if_neg hij]
    · intro i hi' j hj
      simp only [radMat, Arr.smul, Arr.of, sy1, sy2]
      rw [if_pos ⟨hi', hj⟩, eg i hi' j hj, zpow_add₀ ha]
      ring
  | eye =>
    have e : ((hi : Int) - lo + 1).toNat = hi + 1 - lo := by omega
    refine ⟨⟨by simp [radMat, Arr.eye, Arr.of, e], by simp [radMat, Arr.eye, Arr.of, e], ?_⟩, [],
      List.Forall₂.nil, ?_⟩
    · intro i j hij
      simp only [radMat, Arr.eye, Arr.of, e]
      rw [if_neg hij]
    · intro i hi' j hj
      simp only [radMat, Arr.eye, Arr.of, e, windowProd, opId]
      rw [if_pos ⟨hi', hj⟩]
      simp

/-- Slicing a window. -/
theorem slice_ok {z : Arr} {n a m : ℕ} (hz : Square n z) (h : a + m ≤ n) :
    Square m (z.slice a (a + m : ℕ) a (a + m : ℕ)) ∧
      ∀ i < m, ∀ j < m, (z.slice a (a + m : ℕ) a (a + m : ℕ)).e i j = z.e (a + i) (a + j) := by
  obtain ⟨h1, h2, h3⟩ := hz
  have b1 : sliceBound n ((a + m : ℕ) : Int) = a + m := by
    unfold sliceBound; rw [if_neg (by omega)]; omega
  have b2 : sliceBound n (a : Int) = a := by
    unfold sliceBound; rw [if_neg (by omega)]; omega
  refine ⟨⟨?_, ?_, ?_⟩, ?_⟩
  · simp only [Arr.slice, Arr.of, h1, h2, b1, b2]; omega
  · simp only [Arr.slice, Arr.of, h1, h2, b1, b2]; omega
  · intro i j hij
    simp only [Arr.slice, Arr.of, h1, h2, b1, b2]
    rw [if_neg (by omega)]
  · intro i hi j hj
    simp only [Arr.slice, Arr.of, h1, h2, b1, b2]
    rw [if_pos (by omega)]

/-! ## Banded products -/

theorem isProd_window {lo hi : ℕ} : ∀ (fs : List (ℕ → ℕ → ℝ)) (P : ℕ → ℕ → ℝ),
    (∀ f ∈ fs, Banded f) → IsProd fs P → ∀ i j, i ∈ Finset.Icc lo hi → j ∈ Finset.Icc lo hi →
    i + (fs.length - 1) ≤ hi → (lo = 0 ∨ lo + (fs.length - 1) ≤ i) →
    windowProd lo hi fs i j = P i j := by
  intro fs
  induction fs with
  | nil =>
    intro P _ h i j _ _ _ _
    cases h
    rfl
  | cons f fs ih =>
    intro P hb h i j hi' hj h1 h2
    cases h with
    | @cons _ _ Q _ hQ hP =>
      have key : ∀ k, k ∉ Finset.Icc lo hi → f i k * Q k j = 0 := by
        intro k hk
        rcases fs with _ | ⟨g, gs⟩
        · cases hQ
          rw [Finset.mem_Icc] at hj hk
          have : opId k j = 0 := by unfold opId; rw [if_neg (by omega)]
          rw [this, mul_zero]
        · simp only [List.length_cons] at h1 h2
          rw [Finset.mem_Icc] at hk hi'
          rw [hb f (by simp) i k (by omega), zero_mul]
      have hs := hasSum_sum_of_ne_finset_zero (L := .unconditional ℕ) key
      rw [← hs.unique (hP i j)]
      simp only [windowProd]
      refine Finset.sum_congr rfl fun k hk => ?_
      by_cases hn : f i k = 0
      · rw [hn, zero_mul, zero_mul]
      · have hik : ¬ (i + 1 < k ∨ k + 1 < i) := fun h => hn (hb f (by simp) i k h)
        congr 1
        rcases fs with _ | ⟨g, gs⟩
        · cases hQ; rfl
        · refine ih Q (fun g hg => hb g (by simp [hg])) hQ k j hk hj ?_ ?_
          · simp only [List.length_cons] at h1 ⊢; omega
          · simp only [List.length_cons] at h2 ⊢; omega

end Acm
