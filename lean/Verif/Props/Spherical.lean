import Verif.Lemmas.Spherical

/-!
# Properties C01-C09: dimensions, labels and validation

Statements about the model in `Verif.Model.Spherical` / `Verif.Model.Compat`, phrased with
the independent specification `Verif.Spec.Spherical`.
-/

namespace Acm.Props

open Acm Acm.Spec

/-! ## C01 -/

/-- C01: `dimSO5r3(v, L)` is the SO(5) > SO(3) branching multiplicity, for all `v, L ≥ 0`. -/
theorem C01_dimSO5r3_branching (v L : ℕ) : dimSO5r3 v L = .ok (branching v L : Int) := by
  rw [dimSO5r3_ok, dimV_eq_branching]

/-- C01: for negative arguments it is 0 (the code does not raise). -/
theorem C01_dimSO5r3_negative (v L : Int) (h : v < 0 ∨ L < 0) : dimSO5r3 v L = .ok 0 := by
  rw [dimSO5r3_ok]; unfold dimV; rw [if_pos (by omega)]

/-- C01: never negative, never raising. -/
theorem C01_dimSO5r3_total (v L : Int) : ∃ d, dimSO5r3 v L = .ok d ∧ 0 ≤ d :=
  ⟨_, dimSO5r3_ok v L, dimV_nonneg v L⟩

/-- C01: zero above `2v`, at least one at `L = 2v`. -/
theorem C01_dimSO5r3_top (v : ℕ) :
    (∀ L : ℕ, 2 * v < L → dimSO5r3 v L = .ok 0) ∧
      ∃ d : Int, dimSO5r3 v ((2 * v : ℕ) : Int) = .ok d ∧ 0 < d := by
  refine ⟨fun L h => ?_, _, C01_dimSO5r3_branching v (2 * v), ?_⟩
  · rw [C01_dimSO5r3_branching, branching_eq_zero_of_gt h]; rfl
  · exact_mod_cast branching_pos_two_mul v

example : dimSO5r3 6 6 = .ok 2 ∧ branching 6 6 = 2 := by decide +kernel
example : dimSO5r3 3 1 = .ok 0 ∧ dimSO5r3 3 0 = .ok 1 ∧ dimSO5r3 (-1) 0 = .ok 0 := by decide +kernel

/-! ## C02 -/

/-- C02: `dimSO5r3_allL(v)` is the total number of SO(3) multiplets, for every `v ≥ 0`. -/
theorem C02_dimSO5r3_allL (v : ℕ) :
    dimSO5r3_allL v = .ok ((∑ L ∈ Finset.range (2 * v + 1), branching v L : ℕ) : Int) := by
  unfold dimSO5r3_allL
  rw [require_nonnegint_ok (by omega)]
  simp only [py_bind_ok]
  rw [iquo_ok (by positivity) (by decide)]
  rw [sum_branching_any v _ (le_refl _)]; rfl

/-- C02, in terms of the API only: it is `sum(dimSO5r3(v, L) for L in range(0, 2*v + 1))`. -/
theorem C02_dimSO5r3_allL_api (v : ℕ) :
    dimSO5r3_allL v = pySum (pyRange 0 (2 * (v : Int) + 1)) (dimSO5r3 v) := by
  rw [C02_dimSO5r3_allL, pySum_ok (fun L _ => dimSO5r3_ok v L)]
  have := sum_dimV_L v 0 (2 * v)
  push_cast at this ⊢
  rw [this, Finset.range_eq_Ico]

/-- C02: the total over a seniority range. -/
theorem C02_dimSO5r3_rngVallL (v_min v_max : ℕ) (h : v_min ≤ v_max) :
    dimSO5r3_rngVallL v_min v_max = .ok ((∑ v ∈ Finset.Ico v_min (v_max + 1),
      ∑ L ∈ Finset.range (2 * v + 1), branching v L : ℕ) : Int) := by
  unfold dimSO5r3_rngVallL
  rw [require_nonnegint_ok (by omega), require_nonnegint_ok (by omega)]
  simp only [py_bind_ok]
  rw [if_neg (by omega)]
  rw [pySum_ok (g := fun v => v * (v + 3) / 6 + 1)]
  · congr 1
    rw [sum_pyRange]; push_cast
    refine Finset.sum_congr rfl (fun v _ => ?_)
    have := sum_branching_any v (2 * v + 1) (le_refl _)
    push_cast at this; rw [this]
  · intro v hv
    rw [mem_pyRange] at hv
    obtain ⟨n, rfl⟩ := Int.eq_ofNat_of_zero_le (by omega : 0 ≤ v)
    rw [C02_dimSO5r3_allL, sum_branching_any n _ (le_refl _)]

example : dimSO5r3_allL 6 = .ok 10 ∧ dimSO5r3_rngVallL 0 6 = .ok 30 := by decide +kernel

/-! ## C03 -/

/-- C03: the SO(3) content exhausts the SO(5) irrep: `Σ_L (2L+1) mult(v,L) = dimSO5(v)`. -/
theorem C03_dimSO5_exhausted (v : ℕ) :
    dimSO5 v = .ok (∑ L ∈ Finset.range (2 * v + 1), ((2 * L + 1 : ℕ) : Int) * branching v L) := by
  unfold dimSO5
  rw [require_nonnegint_ok (by omega)]
  simp only [py_bind_ok]
  rw [← sum_dim_branching v (2 * v + 1) (le_refl _), Int.fdiv_eq_ediv_of_nonneg _ (by decide)]
  rw [Int.mul_ediv_cancel_left _ (by decide)]; rfl

/-- C03: the division by 6 is exact. -/
theorem C03_dimSO5_exact (v : ℕ) :
    ∃ d : Int, dimSO5 v = .ok d ∧ 6 * d = ((v : Int) + 1) * (v + 2) * (2 * v + 3) :=
  ⟨_, C03_dimSO5_exhausted v, sum_dim_branching v _ (le_refl _)⟩

/-- C03: `dimSO3(L) = 2L+1`, the weight used above. -/
theorem C03_dimSO3 (L : ℕ) : dimSO3 L = .ok ((2 * L + 1 : ℕ) : Int) := by
  unfold dimSO3; rw [require_nonnegint_ok (by omega)]; push_cast; rfl

example : dimSO5 6 = .ok 140 ∧ dimSO3 4 = .ok 9 := by decide +kernel

/-! ## C04 -/

/-- C04: `dimSO5r3_rngL` sums over exactly `L_min..L_max`. -/
theorem C04_rngL (v L_min L_max : ℕ) (h : L_min ≤ L_max) :
    dimSO5r3_rngL v L_min L_max =
      .ok ((∑ L ∈ Finset.Ico L_min (L_max + 1), branching v L : ℕ) : Int) := by
  unfold dimSO5r3_rngL
  rw [require_nonnegint_ok (by omega), require_nonnegint_range_ok (by omega) (by omega)]
  simp only [py_bind_ok]
  rw [pySum_ok (fun L _ => dimSO5r3_ok v L), sum_dimV_L]

/-- C04: `dimSO5r3_rngV` sums over exactly `v_min..v_max`. -/
theorem C04_rngV (v_min v_max L : ℕ) (h : v_min ≤ v_max) :
    dimSO5r3_rngV v_min v_max L =
      .ok ((∑ v ∈ Finset.Ico v_min (v_max + 1), branching v L : ℕ) : Int) := by
  rw [dimSO5r3_rngV_ok (by omega) (by omega) (by omega), sum_dimV_V]

/-- C04: `dimSO5r3_rngVrngL` sums over exactly the rectangle. -/
theorem C04_rngVrngL (v_min v_max L_min L_max : ℕ) (h : v_min ≤ v_max) (h' : L_min ≤ L_max) :
    dimSO5r3_rngVrngL v_min v_max L_min L_max =
      .ok (spaceDim v_min v_max L_min L_max : Int) := by
  rw [dimSO5r3_rngVrngL_ok (by omega) (by omega) (by omega) (by omega), sum_dimV_VL]

/-- C04: `dimSO5r3_rngVvarL` with and without `L_max`. -/
theorem C04_rngVvarL (v_min v_max L_min : ℕ) (h : v_min ≤ v_max) :
    (∀ L_max : ℕ, L_min ≤ L_max → dimSO5r3_rngVvarL v_min v_max L_min (some (L_max : Int)) =
      .ok (spaceDim v_min v_max L_min L_max : Int)) ∧
    dimSO5r3_rngVvarL v_min v_max L_min none = .ok (spaceDim v_min v_max L_min L_min : Int) := by
  refine ⟨fun L_max h' => C04_rngVrngL v_min v_max L_min L_max h h', ?_⟩
  show dimSO5r3_rngV v_min v_max L_min = _
  rw [C04_rngV _ _ _ h]; unfold spaceDim; simp

example : dimSO5r3_rngVvarL 0 6 0 (some 6) = .ok 21 ∧ dimSO5r3_rngVvarL 0 6 6 none = .ok 5 := by
  decide +kernel

/-! ## C05 -/

/-- C05: with an explicit `L_max`, `lbsSO5r3_rngVvarL` lists every label exactly once. -/
theorem C05_rngVvarL (v_min v_max L_min L_max : ℕ) (h : v_min ≤ v_max) (h' : L_min ≤ L_max) :
    ∃ l, lbsSO5r3_rngVvarL v_min v_max L_min (some (L_max : Int)) = .ok l ∧
      (∀ x, x ∈ l ↔ IsLabel v_min v_max L_min L_max x) ∧ l.Nodup ∧
      dimSO5r3_rngVvarL v_min v_max L_min (some (L_max : Int)) = .ok (l.length : Int) := by
  refine ⟨_, lbsSO5r3_rngVvarL_some_ok (by omega) (by omega) (by omega) (by omega),
    mem_labelsV_iff _ _ _ _, labelsV_nodup _ _ _ _, ?_⟩
  rw [length_labelsV_nat, (C04_rngVvarL v_min v_max L_min h).1 L_max h']

/-- C05 for `lbsSO5r3_rngVrngL`. -/
theorem C05_rngVrngL (v_min v_max L_min L_max : ℕ) (h : v_min ≤ v_max) (h' : L_min ≤ L_max) :
    ∃ l, lbsSO5r3_rngVrngL v_min v_max L_min L_max = .ok l ∧
      (∀ x, x ∈ l ↔ IsLabel v_min v_max L_min L_max x) ∧ l.Nodup ∧
      dimSO5r3_rngVrngL v_min v_max L_min L_max = .ok (l.length : Int) := by
  refine ⟨_, lbsSO5r3_rngVrngL_ok (by omega) (by omega) (by omega) (by omega),
    mem_labelsV_iff _ _ _ _, labelsV_nodup _ _ _ _, ?_⟩
  rw [length_labelsV_nat, C04_rngVrngL _ _ _ _ h h']

/-- C05 for `lbsSO5r3_rngV` (fixed `L`). -/
theorem C05_rngV (v_min v_max L : ℕ) (h : v_min ≤ v_max) :
    ∃ l, lbsSO5r3_rngV v_min v_max L = .ok l ∧
      (∀ x, x ∈ l ↔ IsLabel v_min v_max L L x) ∧ l.Nodup ∧
      dimSO5r3_rngV v_min v_max L = .ok (l.length : Int) := by
  refine ⟨_, lbsSO5r3_rngV_ok (by omega) (by omega) (by omega),
    mem_labelsV_iff _ _ _ _, labelsV_nodup _ _ _ _, ?_⟩
  rw [length_labelsV_nat, C04_rngV _ _ _ h]; unfold spaceDim; simp

/-- C05 for `lbsSO5r3_rngL` (fixed `v`). -/
theorem C05_rngL (v L_min L_max : ℕ) (h : L_min ≤ L_max) :
    ∃ l, lbsSO5r3_rngL v L_min L_max = .ok l ∧
      (∀ x, x ∈ l ↔ IsLabel v v L_min L_max x) ∧ l.Nodup ∧
      dimSO5r3_rngL v L_min L_max = .ok (l.length : Int) := by
  refine ⟨_, lbsSO5r3_rngL_ok (by omega) (by omega) (by omega),
    mem_labelsV_iff _ _ _ _, labelsV_nodup _ _ _ _, ?_⟩
  rw [length_labelsV_nat, C04_rngL _ _ _ h]; unfold spaceDim; simp

/-- C05 for `lbsSO5r3_rngVallL` (all `L`): every label of every seniority in range. -/
theorem C05_rngVallL (v_min v_max : ℕ) (h : v_min ≤ v_max) :
    ∃ l, lbsSO5r3_rngVallL v_min v_max = .ok l ∧
      (∀ x, x ∈ l ↔ ∃ v a L : ℕ, x = ((v : Int), (a : Int), (L : Int)) ∧
        v_min ≤ v ∧ v ≤ v_max ∧ 1 ≤ a ∧ a ≤ branching v L) ∧ l.Nodup ∧
      dimSO5r3_rngVallL v_min v_max = .ok (l.length : Int) := by
  have hm : labelsV v_min v_max 0 (2 * v_max) =
      labelsV (v_min : ℕ) (v_max : ℕ) ((0 : ℕ) : Int) ((2 * v_max : ℕ) : Int) := by push_cast; rfl
  refine ⟨_, lbsSO5r3_rngVallL_ok (by omega) (by omega), ?_, labelsV_nodup _ _ _ _, ?_⟩
  · intro x
    rw [hm, mem_labelsV_iff]
    constructor
    · rintro ⟨v, a, L, e, h1, h2, _, _, h3, h4⟩
      exact ⟨v, a, L, e, h1, h2, h3, h4⟩
    · rintro ⟨v, a, L, e, h1, h2, h3, h4⟩
      have : L ≤ 2 * v := by
        by_contra hc
        rw [branching_eq_zero_of_gt (by omega)] at h4; omega
      exact ⟨v, a, L, e, h1, h2, by omega, by omega, h3, h4⟩
  · rw [hm, length_labelsV_nat, C02_dimSO5r3_rngVallL _ _ h]
    unfold spaceDim
    congr 2
    refine Finset.sum_congr rfl (fun v hv => ?_)
    rw [Finset.mem_Ico] at hv
    rw [← Finset.range_eq_Ico, sum_branching_full v (2 * v_max + 1) (by omega)]

/-- C05 for `lbsSO5r3_allL` (pairs `(alpha, L)` of one seniority). -/
theorem C05_allL (v : ℕ) :
    ∃ l, lbsSO5r3_allL v = .ok l ∧
      (∀ x, x ∈ l ↔ ∃ a L : ℕ, x = ((a : Int), (L : Int)) ∧ 1 ≤ a ∧ a ≤ branching v L) ∧
      l.Nodup ∧ dimSO5r3_allL v = .ok (l.length : Int) := by
  have hm : labelsV v v 0 (2 * v) =
      labelsV (v : ℕ) (v : ℕ) ((0 : ℕ) : Int) ((2 * v : ℕ) : Int) := by push_cast; rfl
  refine ⟨_, lbsSO5r3_allL_ok (by omega), ?_, ?_, ?_⟩
  · intro x
    rw [hm]
    simp only [List.mem_map, mem_labelsV_iff]
    constructor
    · rintro ⟨_, ⟨v', a, L, rfl, h1, h2, _, _, h3, h4⟩, rfl⟩
      obtain rfl : v' = v := by omega
      exact ⟨a, L, rfl, h3, h4⟩
    · rintro ⟨a, L, rfl, h1, h2⟩
      have : L ≤ 2 * v := by
        by_contra hc
        rw [branching_eq_zero_of_gt (by omega)] at h2; omega
      exact ⟨_, ⟨v, a, L, rfl, le_refl _, le_refl _, by omega, by omega, h1, h2⟩, rfl⟩
  · refine (List.nodup_map_iff_inj_on (labelsV_nodup _ _ _ _)).mpr ?_
    rintro ⟨v1, a1, L1⟩ h1 ⟨v2, a2, L2⟩ h2 h
    rw [mem_labelsV] at h1 h2
    simp only [Prod.mk.injEq] at h ⊢
    omega
  · rw [List.length_map, hm, length_labelsV_nat, C02_dimSO5r3_allL]
    unfold spaceDim
    simp

example : lbsSO5r3_rngVvarL 1 2 2 (some 4) = .ok [(1, 1, 2), (2, 1, 2), (2, 1, 4)] := by
  decide +kernel
example : lbsSO5r3_allL 3 = .ok [(1, 0), (1, 3), (1, 4), (1, 6)] := by decide +kernel

/-! ## C06 -/

/-- C06: the layout lists are strictly increasing for "L slowest, then v, then alpha"; the
single-`v` and single-`L` lists inherit the same order. -/
theorem C06_order (v_min v_max L_min L_max : ℕ) (h : v_min ≤ v_max) (h' : L_min ≤ L_max) :
    (∃ l, lbsSO5r3_rngVvarL v_min v_max L_min (some (L_max : Int)) = .ok l ∧
      l.Pairwise LayoutLT) ∧
    (∃ l, lbsSO5r3_rngVrngL v_min v_max L_min L_max = .ok l ∧ l.Pairwise LayoutLT) ∧
    (∃ l, lbsSO5r3_rngV v_min v_max L_min = .ok l ∧ l.Pairwise LayoutLT) ∧
    (∃ l, lbsSO5r3_rngL v_min L_min L_max = .ok l ∧ l.Pairwise LayoutLT) ∧
    (∃ l, lbsSO5r3_rngVallL v_min v_max = .ok l ∧ l.Pairwise LayoutLT) :=
  ⟨⟨_, lbsSO5r3_rngVvarL_some_ok (by omega) (by omega) (by omega) (by omega),
      labelsV_pairwise _ _ _ _⟩,
    ⟨_, lbsSO5r3_rngVrngL_ok (by omega) (by omega) (by omega) (by omega),
      labelsV_pairwise _ _ _ _⟩,
    ⟨_, lbsSO5r3_rngV_ok (by omega) (by omega) (by omega), labelsV_pairwise _ _ _ _⟩,
    ⟨_, lbsSO5r3_rngL_ok (by omega) (by omega) (by omega), labelsV_pairwise _ _ _ _⟩,
    ⟨_, lbsSO5r3_rngVallL_ok (by omega) (by omega), labelsV_pairwise _ _ _ _⟩⟩

/-- C06: the pairs `(alpha, L)` of one seniority are increasing in `(L, alpha)`. -/
theorem C06_allL (v : ℕ) :
    ∃ l, lbsSO5r3_allL v = .ok l ∧
      l.Pairwise fun x y => x.2 < y.2 ∨ (x.2 = y.2 ∧ x.1 < y.1) := by
  refine ⟨_, lbsSO5r3_allL_ok (by omega), ?_⟩
  rw [List.pairwise_map]
  refine (labelsV_pairwise _ _ _ _).imp_of_mem ?_
  rintro ⟨v1, a1, L1⟩ ⟨v2, a2, L2⟩ h1 h2 h
  rw [mem_labelsV] at h1 h2
  simp only [LayoutLT] at h ⊢
  omega

/-- C06: constant-`L` blocks are contiguous: a list over `L_min..L_max` is the concatenation of
the lists over `L_min..M` and `M+1..L_max`. -/
theorem C06_blocks (v_min v_max L_min M L_max : ℕ) (h : v_min ≤ v_max) (h1 : L_min ≤ M)
    (h2 : M < L_max) :
    ∃ l l1 l2, lbsSO5r3_rngVvarL v_min v_max L_min (some (L_max : Int)) = .ok l ∧
      lbsSO5r3_rngVvarL v_min v_max L_min (some (M : Int)) = .ok l1 ∧
      lbsSO5r3_rngVvarL v_min v_max ((M : Int) + 1) (some (L_max : Int)) = .ok l2 ∧
      l = l1 ++ l2 := by
  refine ⟨_, _, _, lbsSO5r3_rngVvarL_some_ok (by omega) (by omega) (by omega) (by omega),
    lbsSO5r3_rngVvarL_some_ok (by omega) (by omega) (by omega) (by omega),
    lbsSO5r3_rngVvarL_some_ok (by omega) (by omega) (by omega) (by omega), ?_⟩
  unfold labelsV
  rw [pyRange_append (a := (L_min : Int)) (b := (M : Int) + 1) (by omega) (by omega),
    List.flatMap_append]

example : (1 : ℕ) ≤ 3 ∧ (0 : ℕ) ≤ 2 ∧ 2 < 4 := by decide
example : lbsSO5r3_rngVvarL 1 3 0 (some 4) =
    .ok [(3, 1, 0), (1, 1, 2), (2, 1, 2), (3, 1, 3), (2, 1, 4), (3, 1, 4)] := by decide +kernel

/-! ## C07

Full claim: `lbsSO5r3_rngVvarL(v_min, v_max, L)` equals
`lbsSO5r3_rngVvarL(v_min, v_max, L, L)`.  It is false: line 413 of spherical_space.py iterates
`range(1, dimSO5r3(u, L_min))`, dropping the largest `alpha` of every seniority. -/

/-- The exact content of the list returned when `L_max` is omitted: the largest `alpha` is
missing. -/
theorem C07_labels_omitted_content (v_min v_max L : ℕ) (h : v_min ≤ v_max) :
    ∃ l, lbsSO5r3_rngVvarL v_min v_max L none = .ok l ∧
      ∀ x, x ∈ l ↔ ∃ v a : ℕ, x = ((v : Int), (a : Int), (L : Int)) ∧
        v_min ≤ v ∧ v ≤ v_max ∧ 1 ≤ a ∧ a < branching v L := by
  refine ⟨(pyRange (v_min : Int) ((v_max : Int) + 1)).flatMap fun u =>
    (pyRange 1 (dimV u L)).map fun a => (u, a, (L : Int)), ?_, ?_⟩
  · unfold lbsSO5r3_rngVvarL
    rw [require_nonnegint_range_ok (by omega) (by omega), require_nonnegint_ok (by omega)]
    simp only [py_bind_ok]
    refine pyFlat_ok (fun u _ => ?_)
    rw [dimSO5r3_ok]; rfl
  · rintro ⟨v, a, L'⟩
    simp only [List.mem_flatMap, List.mem_map, mem_pyRange, Prod.mk.injEq]
    constructor
    · rintro ⟨u, hu, a', ha, rfl, rfl, rfl⟩
      obtain ⟨u, rfl⟩ := Int.eq_ofNat_of_zero_le (by omega : 0 ≤ u)
      obtain ⟨a', rfl⟩ := Int.eq_ofNat_of_zero_le (by omega : 0 ≤ a')
      rw [dimV_eq_branching] at ha
      exact ⟨u, a', ⟨rfl, rfl, rfl⟩, by omega, by omega, by omega, by omega⟩
    · rintro ⟨v', a', ⟨rfl, rfl, rfl⟩, h1, h2, h3, h4⟩
      exact ⟨v', by omega, a', by rw [dimV_eq_branching]; omega, rfl, rfl, rfl⟩

/-- C07 is violated whenever the space is non-trivial: the two lists differ as soon as some
seniority in range contains `L`. -/
theorem C07_labels_omitted_violated (v_min v_max L v : ℕ) (h1 : v_min ≤ v) (h2 : v ≤ v_max)
    (hL : 0 < branching v L) :
    lbsSO5r3_rngVvarL v_min v_max L none ≠ lbsSO5r3_rngVvarL v_min v_max L (some (L : Int)) := by
  obtain ⟨l, hl, hm⟩ := C07_labels_omitted_content v_min v_max L (by omega)
  obtain ⟨l', hl', hm', _⟩ := C05_rngVvarL v_min v_max L L (by omega) (le_refl _)
  rw [hl, hl']
  intro e
  have e : l = l' := by injection e
  subst e
  have h3 : ((v : Int), (branching v L : Int), (L : Int)) ∈ l :=
    (hm' _).mpr ⟨v, branching v L, L, rfl, h1, h2, le_refl _, le_refl _, hL, le_refl _⟩
  obtain ⟨v', a', e, _, _, _, h4⟩ := (hm _).mp h3
  simp only [Prod.mk.injEq] at e
  obtain ⟨e1, e2, _⟩ := e
  have : v' = v := by omega
  subst this
  omega

/-- C07 witness: seniorities 0..2, L = 2. -/
theorem C07_witness : lbsSO5r3_rngVvarL 0 2 2 none = .ok [] ∧
    lbsSO5r3_rngVvarL 0 2 2 (some 2) = .ok [(1, 1, 2), (2, 1, 2)] := by decide +kernel

/-- C07 (partial): the dimension function does treat an omitted `L_max` as `L_max = L_min`.
Missing: the same for the label list, which is false (see `C07_labels_omitted_violated`). -/
theorem C07_dim_omitted_partial (v_min v_max L : ℕ) (h : v_min ≤ v_max) :
    dimSO5r3_rngVvarL v_min v_max L none = dimSO5r3_rngVvarL v_min v_max L (some (L : Int)) := by
  rw [(C04_rngVvarL v_min v_max L h).2, (C04_rngVvarL v_min v_max L h).1 L (le_refl _)]

example : (0 : ℕ) ≤ 1 ∧ 0 < branching 1 2 := by decide

/-! ## C08 (validation of integers and ranges; `validate_Lvals` is in `Props/FullSpace`) -/

/-- C08: `require_nonnegint` raises exactly on negative integers. -/
theorem C08_require_nonnegint (x : Int) :
    require_nonnegint x = if 0 ≤ x then .ok () else .error .valueError := by
  split_ifs with h
  · exact require_nonnegint_ok h
  · exact require_nonnegint_err (by omega)

/-- C08: `require_posint` raises exactly on non-positive integers. -/
theorem C08_require_posint (x : Int) :
    require_posint x = if 0 < x then .ok () else .error .valueError := by
  split_ifs with h
  · exact require_posint_ok h
  · exact require_posint_err (by omega)

/-- C08: `require_nonnegint_range` raises exactly on negative or reversed ranges. -/
theorem C08_require_nonnegint_range (a b : Int) :
    require_nonnegint_range a b = if 0 ≤ a ∧ a ≤ b then .ok () else .error .valueError := by
  split_ifs with h
  · exact require_nonnegint_range_ok h.1 h.2
  · exact require_nonnegint_range_err h

/-- C08: illegal ranges always raise `ValueError` in the dimension and label functions. -/
theorem C08_illegal_ranges (v_min v_max L_min L_max : Int)
    (h : ¬ (0 ≤ v_min ∧ v_min ≤ v_max) ∨ ¬ (0 ≤ L_min ∧ L_min ≤ L_max)) :
    dimSO5r3_rngVrngL v_min v_max L_min L_max = .error .valueError ∧
    lbsSO5r3_rngVrngL v_min v_max L_min L_max = .error .valueError ∧
    lbsSO5r3_rngVvarL v_min v_max L_min (some L_max) = .error .valueError ∧
    dimSO5r3_rngVvarL v_min v_max L_min (some L_max) = .error .valueError := by
  have e1 : dimSO5r3_rngVrngL v_min v_max L_min L_max = .error .valueError := by
    unfold dimSO5r3_rngVrngL
    by_cases h1 : 0 ≤ v_min ∧ v_min ≤ v_max
    · rw [require_nonnegint_range_ok h1.1 h1.2, require_nonnegint_range_err (by tauto)]; rfl
    · rw [require_nonnegint_range_err h1]; rfl
  refine ⟨e1, ?_, ?_, e1⟩
  · unfold lbsSO5r3_rngVrngL
    by_cases h1 : 0 ≤ v_min ∧ v_min ≤ v_max
    · rw [require_nonnegint_range_ok h1.1 h1.2, require_nonnegint_range_err (by tauto)]; rfl
    · rw [require_nonnegint_range_err h1]; rfl
  · unfold lbsSO5r3_rngVvarL
    by_cases h1 : 0 ≤ v_min ∧ v_min ≤ v_max
    · rw [require_nonnegint_range_ok h1.1 h1.2]
      by_cases h2 : 0 ≤ L_min
      · rw [require_nonnegint_ok h2]
        simp only [py_bind_ok]
        rw [require_nonnegint_range_err (by tauto)]; rfl
      · rw [require_nonnegint_err (by omega)]; rfl
    · rw [require_nonnegint_range_err h1]; rfl

/-- C08: the remaining single-argument functions. -/
theorem C08_illegal_single (v_min v_max L : Int)
    (h : ¬ (0 ≤ v_min ∧ v_min ≤ v_max) ∨ L < 0) :
    dimSO5r3_rngV v_min v_max L = .error .valueError ∧
    lbsSO5r3_rngV v_min v_max L = .error .valueError ∧
    lbsSO5r3_rngVvarL v_min v_max L none = .error .valueError ∧
    (v_min < 0 → dimSO5 v_min = .error .valueError ∧ dimSO3 v_min = .error .valueError ∧
      dimSO5r3_allL v_min = .error .valueError ∧ lbsSO5r3_allL v_min = .error .valueError) := by
  refine ⟨?_, ?_, ?_, fun hn => ⟨?_, ?_, ?_, ?_⟩⟩
  · unfold dimSO5r3_rngV
    by_cases h1 : 0 ≤ v_min ∧ v_min ≤ v_max
    · rw [require_nonnegint_range_ok h1.1 h1.2, require_nonnegint_err (by tauto)]; rfl
    · rw [require_nonnegint_range_err h1]; rfl
  · unfold lbsSO5r3_rngV
    by_cases h1 : 0 ≤ v_min ∧ v_min ≤ v_max
    · rw [require_nonnegint_range_ok h1.1 h1.2, require_nonnegint_err (by tauto)]; rfl
    · rw [require_nonnegint_range_err h1]; rfl
  · unfold lbsSO5r3_rngVvarL
    by_cases h1 : 0 ≤ v_min ∧ v_min ≤ v_max
    · rw [require_nonnegint_range_ok h1.1 h1.2, require_nonnegint_err (by tauto)]; rfl
    · rw [require_nonnegint_range_err h1]; rfl
  · unfold dimSO5; rw [require_nonnegint_err hn]; rfl
  · unfold dimSO3; rw [require_nonnegint_err hn]; rfl
  · unfold dimSO5r3_allL; rw [require_nonnegint_err hn]; rfl
  · unfold lbsSO5r3_allL; rw [require_nonnegint_err hn]; rfl

/-- C08: the functions of one seniority and a range of `L`, and those of a range of seniorities
and all `L`. -/
theorem C08_illegal_rest (v_min v_max L_min L_max : Int) :
    (v_min < 0 ∨ ¬ (0 ≤ L_min ∧ L_min ≤ L_max) →
      dimSO5r3_rngL v_min L_min L_max = .error .valueError ∧
      lbsSO5r3_rngL v_min L_min L_max = .error .valueError) ∧
    (¬ (0 ≤ v_min ∧ v_min ≤ v_max) →
      dimSO5r3_rngVallL v_min v_max = .error .valueError ∧
      lbsSO5r3_rngVallL v_min v_max = .error .valueError) ∧
    (¬ (0 ≤ v_min ∧ v_min ≤ v_max) ∨ L_min < 0 →
      dimSO5r3_rngVvarL v_min v_max L_min none = .error .valueError) := by
  refine ⟨fun h => ?_, fun h => ?_, fun h => (C08_illegal_single v_min v_max L_min h).1⟩
  · unfold dimSO5r3_rngL lbsSO5r3_rngL
    by_cases h1 : v_min < 0
    · rw [require_nonnegint_err h1]; exact ⟨rfl, rfl⟩
    · rw [require_nonnegint_ok (by omega), require_nonnegint_range_err (by tauto)]; exact ⟨rfl, rfl⟩
  · unfold dimSO5r3_rngVallL lbsSO5r3_rngVallL
    rw [require_nonnegint_range_err h]
    refine ⟨?_, rfl⟩
    by_cases h1 : v_min < 0
    · rw [require_nonnegint_err h1]; rfl
    · by_cases h2 : v_max < 0
      · rw [require_nonnegint_ok (by omega), require_nonnegint_err h2]; rfl
      · rw [require_nonnegint_ok (by omega), require_nonnegint_ok (by omega)]
        simp only [py_bind_ok]
        rw [if_pos (by omega)]; rfl

example : ¬ ((0 : Int) ≤ 3 ∧ (3 : Int) ≤ 2) := by decide
example : dimSO5r3_rngL 2 3 2 = .error .valueError ∧
    lbsSO5r3_rngVallL 3 2 = .error .valueError := by decide +kernel

/-! ## C09 -/

/-- C09: `iquo`/`irem` are Euclidean division on their domain. -/
theorem C09_iquo_irem (m n : Int) (hm : 0 ≤ m) (hn : 0 < n) :
    ∃ q r, iquo m n = .ok q ∧ irem m n = .ok r ∧ m = q * n + r ∧ 0 ≤ r ∧ r < n :=
  ⟨_, _, iquo_ok hm hn, irem_ok hm hn, (Int.ediv_mul_add_emod m n).symm,
    Int.emod_nonneg _ (by omega), Int.emod_lt_of_pos _ hn⟩

/-- C09: outside the domain both raise `ValueError`. -/
theorem C09_iquo_irem_err (m n : Int) (h : m < 0 ∨ n ≤ 0) :
    iquo m n = .error .valueError ∧ irem m n = .error .valueError :=
  ⟨iquo_err (by omega), irem_err (by omega)⟩

/-- C09: `is_even`/`is_odd` characterise parity for every integer, including negative ones. -/
theorem C09_parity (n : Int) :
    (is_even n = true ↔ ∃ k, n = 2 * k) ∧ (is_odd n = true ↔ ∃ k, n = 2 * k + 1) ∧
      is_odd n = !is_even n := by
  have h1 := is_even_iff n
  have h2 := is_odd_iff n
  refine ⟨?_, ?_, ?_⟩
  · rw [h1]; constructor
    · intro h; exact ⟨n / 2, by omega⟩
    · rintro ⟨k, rfl⟩; omega
  · rw [h2]; constructor
    · intro h; exact ⟨n / 2, by omega⟩
    · rintro ⟨k, rfl⟩; omega
  · rcases Int.emod_two_eq_zero_or_one n with h | h
    · rw [h1.mpr h]
      cases hc : is_odd n with
      | false => rfl
      | true => rw [hc] at h2; simp at h2; omega
    · rw [h2.mpr h]
      cases hc : is_even n with
      | false => rfl
      | true => rw [hc] at h1; simp at h1; omega

example : iquo 17 5 = .ok 3 ∧ irem 17 5 = .ok 2 ∧ is_odd (-3) = true := by decide +kernel

end Acm.Props
