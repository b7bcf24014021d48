import Verif.Lemmas.CGSO5
import Verif.Lemmas.CGFiles
import Mathlib.Tactic.NormNum
import Mathlib.Tactic.Ring
import Mathlib.Tactic.FieldSimp

/-!
# Properties of the SO(5) > SO(3) Clebsch-Gordan tables: C51-C56
-/

namespace Acm.Props

open Acm Acm.Spec

/-- A file system in which every data file holds 100 zeros, used by the examples. -/
noncomputable def exampleFS : FileSys := ⟨fun _ => some (List.replicate 100 0), []⟩

/-! ## C51 -/

/-- C51.  Whenever a selection rule is violated `CG_SO5r3` returns 0 and leaves the state alone:
no file is read, no table is loaded. -/
theorem C51_selection_rules (fs : FileSys) (s : CGState) (v1 a1 L1 v2 a2 L2 v3 a3 L3 : ℕ)
    (h1 : 1 ≤ a1) (h2 : 1 ≤ a2) (h3 : 1 ≤ a3)
    (h : ¬ CG5Rules v1 a1 L1 v2 a2 L2 v3 a3 L3) :
    CG_SO5r3 fs (v1, a1, L1) (v2, a2, L2) (v3, a3, L3) s = (.ok 0, s) :=
  CG_SO5r3_zero fs (tripleOk_nat h1) (tripleOk_nat h2) (tripleOk_nat h3)
    ((cgZero_iff h1 h2 h3).2 h) s

/-- Labels violating only the multiplicity rule, and labels violating none. -/
example : ¬ CG5Rules 2 2 2 2 1 2 2 1 2 ∧ CG5Rules 2 1 2 2 1 2 2 1 2 := by
  unfold CG5Rules Triangle IsState
  decide +kernel

/-! ## C52 -/

/-- C52.  For labels passing the selection rules with `0 < v2` and `v1 ≤ v3`, after any history of
calls: if the data file of the quintet has at least one value per label, the value
returned is the one on the line of its label, in the documented order of lines. -/
theorem C52_lookup (fs : FileSys) (dir : Option (List Char)) (cs : List CGCall)
    (v1 a1 L1 v2 a2 L2 v3 a3 L3 : ℕ) (h : CG5Rules v1 a1 L1 v2 a2 L2 v3 a3 L3)
    (hv : v1 ≤ v3) (h2 : 0 < v2) (xs : List ℝ) (path : List Char)
    (hp : SO5CG_filename fs (CGState.start dir) (v1, v2, a2, L2, v3) = .ok path)
    (hf : fs.readdata path = some xs) (labels : List Quartet) (hl : CGLines v1 L2 v3 labels)
    (hn : labels.length ≤ xs.length) :
    ∃ (i : ℕ) (x : ℝ), labels[i]? = some ((a1 : Int), (L1 : Int), (a3 : Int), (L3 : Int)) ∧ xs[i]? = some x ∧
      (CG_SO5r3 fs (v1, a1, L1) (v2, a2, L2) (v3, a3, L3)
        (runCGCalls fs cs (CGState.start dir))).1 = .ok x := by
  have hr := h
  obtain ⟨t1, t2, t3, s1, s2, s3⟩ := h
  obtain rfl : labels = cgLabels v1 L2 v3 := cgLines_unique hl (cgLines_cgLabels v1 L2 v3)
  have hmem : (((a1 : Int), (L1 : Int), (a3 : Int), (L3 : Int)) : Quartet) ∈
      cgLabels v1 L2 v3 := (hl.1 _).2 ⟨a1, L1, a3, L3, rfl, s1, s3, t2⟩
  obtain ⟨i, hi⟩ := List.mem_iff_getElem?.1 hmem
  have hil : i < (cgLabels v1 L2 v3).length := (List.getElem?_eq_some_iff.1 hi).1
  refine ⟨i, xs[i], hi, List.getElem?_eq_getElem _, ?_⟩
  rw [CG_SO5r3_after]
  unfold cgValue
  rw [if_neg (not_not.2 ⟨tripleOk_nat s1.1, tripleOk_nat s2.1, tripleOk_nat s3.1⟩),
    if_neg (by rw [cgZero_iff s1.1 s2.1 s3.1]; exact not_not.2 hr)]
  have hk : CG_key ((v1 : Int), (v2 : Int), (a2 : Int), (L2 : Int), (v3 : Int)) =
      ((v1 : Int), (v2 : Int), (a2 : Int), (L2 : Int), (v3 : Int)) := by
    unfold CG_key; simp only; rw [if_neg (by omega)]
  have hq : QuintetOk ((v1 : Int), (v2 : Int), (a2 : Int), (L2 : Int), (v3 : Int)) :=
    ⟨by simp, by simp, by have := s2.1; simp only; omega, by simp, by simp⟩
  unfold SO5CG_filename at hp
  rw [require_SO5Quintet_ok hq, py_bind_ok, get_base_directory_eq] at hp
  injection hp with hp
  have hd : keyTable fs dir ((v1 : Int), (v2 : Int), (a2 : Int), (L2 : Int), (v3 : Int)) =
      .ok (dictOf ((cgLabels v1 L2 v3).zip xs)) := by
    unfold keyTable keyData
    simp only
    rw [if_pos (by omega)]
    unfold cgPath
    rw [show baseDir fs dir ++ _ = path from hp, hf]
    rfl
  simp only
  rw [hk, hd, py_bind_ok, if_pos (by omega)]
  unfold dictGet
  rw [dictOf_zip_get (cgLabels_nodup _ _ _) hi (List.getElem?_eq_getElem (by omega))]
  rfl

/-- The hypotheses of C52_lookup are met. -/
example : ∃ (i : ℕ) (x : ℝ), (cgLabels (1 : ℕ) (2 : ℕ) (2 : ℕ))[i]? = some (1, 2, 1, 4) ∧
    (List.replicate 100 (0 : ℝ))[i]? = some x ∧
    (CG_SO5r3 exampleFS (1, 1, 2) (1, 1, 2) (2, 1, 4) (CGState.start none)).1 = .ok x :=
  C52_lookup exampleFS none [] 1 1 2 1 1 2 2 1 4 (by unfold CG5Rules Triangle IsState; decide +kernel) (by decide)
    (by decide) (List.replicate 100 0) _ rfl rfl _ (cgLines_cgLabels 1 2 2)
    (by rw [List.length_replicate, show (cgLabels (1 : ℕ) (2 : ℕ) (2 : ℕ)).length = 2 by decide +kernel]; decide)

/-! ## C53 -/

/-- The exchange factor, with the dimensions `(v+1)(v+2)(2v+3)/6` of the SO(5) irrep and `2L+1` of
the SO(3) irrep. -/
noncomputable def exchangeFactor (v1 L1 L2 v3 L3 : ℕ) : ℝ :=
  (-1) ^ ((L3 : ℤ) + L2 - L1) *
    Real.sqrt (((v3 + 1) * (v3 + 2) * (2 * v3 + 3) / 6) * (2 * L1 + 1) /
      ((v1 + 1) * (v1 + 2) * (2 * v1 + 3) / 6) / (2 * L3 + 1))

theorem exchangeFactor_inv (v1 L1 L2 v3 L3 : ℕ) :
    exchangeFactor v1 L1 L2 v3 L3 * exchangeFactor v3 L3 L2 v1 L1 = 1 := by
  unfold exchangeFactor
  rw [mul_mul_mul_comm, ← zpow_add₀ (by norm_num), ← Real.sqrt_mul (by positivity)]
  have e : (L3 : ℤ) + L2 - L1 + (L1 + L2 - L3) = 2 * L2 := by ring
  rw [e, zpow_mul]
  have : (((v3 + 1) * (v3 + 2) * (2 * v3 + 3) / 6) * (2 * L1 + 1) /
      ((v1 + 1) * (v1 + 2) * (2 * v1 + 3) / 6) / (2 * L3 + 1) *
      (((v1 + 1) * (v1 + 2) * (2 * v1 + 3) / 6) * (2 * L3 + 1) /
      ((v3 + 1) * (v3 + 2) * (2 * v3 + 3) / 6) / (2 * L1 + 1)) : ℝ) = 1 := by
    have h1 : (v3 : ℝ) + 1 ≠ 0 := by positivity
    have h2 : (v3 : ℝ) + 2 ≠ 0 := by positivity
    have h3 : 2 * (v3 : ℝ) + 3 ≠ 0 := by positivity
    have h4 : (v1 : ℝ) + 1 ≠ 0 := by positivity
    have h5 : (v1 : ℝ) + 2 ≠ 0 := by positivity
    have h6 : 2 * (v1 : ℝ) + 3 ≠ 0 := by positivity
    have h7 : 2 * (L1 : ℝ) + 1 ≠ 0 := by positivity
    have h8 : 2 * (L3 : ℝ) + 1 ≠ 0 := by positivity
    field_simp
  rw [this]
  norm_num

theorem exchange_gt (fs : FileSys) (dir : Option (List Char)) (v1 a1 L1 v2 a2 L2 v3 a3 L3 : ℕ)
    (h1 : 1 ≤ a1) (h2 : 1 ≤ a2) (h3 : 1 ≤ a3) (hv : v3 < v1) :
    cgValue fs dir (v1, a1, L1) (v2, a2, L2) (v3, a3, L3) =
      (cgValue fs dir (v3, a3, L3) (v2, a2, L2) (v1, a1, L1)).map
        fun x => exchangeFactor v1 L1 L2 v3 L3 * x := by
  unfold cgValue
  rw [if_neg (not_not.2 ⟨tripleOk_nat h1, tripleOk_nat h2, tripleOk_nat h3⟩),
    if_neg (not_not.2 ⟨tripleOk_nat h3, tripleOk_nat h2, tripleOk_nat h1⟩)]
  by_cases hz : CG5Rules v1 a1 L1 v2 a2 L2 v3 a3 L3
  · have hz' : CG5Rules v3 a3 L3 v2 a2 L2 v1 a1 L1 := by
      unfold CG5Rules Triangle IsState at *
      rw [Nat.even_iff] at *
      omega
    rw [if_neg (by rw [cgZero_iff h1 h2 h3]; exact not_not.2 hz),
      if_neg (by rw [cgZero_iff h3 h2 h1]; exact not_not.2 hz')]
    have hk : CG_key ((v1 : Int), (v2 : Int), (a2 : Int), (L2 : Int), (v3 : Int)) =
        ((v3 : Int), (v2 : Int), (a2 : Int), (L2 : Int), (v1 : Int)) := by
      unfold CG_key; simp only; rw [if_pos (by omega)]
    have hk' : CG_key ((v3 : Int), (v2 : Int), (a2 : Int), (L2 : Int), (v1 : Int)) =
        ((v3 : Int), (v2 : Int), (a2 : Int), (L2 : Int), (v1 : Int)) := by
      unfold CG_key; simp only; rw [if_neg (by omega)]
    simp only
    rw [hk, hk', CG_exchange_ok]
    cases keyTable fs dir ((v3 : Int), (v2 : Int), (a2 : Int), (L2 : Int), (v1 : Int)) with
    | error e => rfl
    | ok d =>
      rw [py_bind_ok, py_bind_ok, if_neg (show ¬ (v1 : Int) ≤ v3 by omega),
        if_pos (show (v3 : Int) ≤ v1 by omega)]
      cases dictGet d ((a3 : Int), (L3 : Int), (a1 : Int), (L1 : Int)) with
      | error e => rfl
      | ok c =>
        simp only [py_bind_ok, py_pure, Except.map, exchangeFactor]
        congr 1
        ring
  · have hz' : ¬ CG5Rules v3 a3 L3 v2 a2 L2 v1 a1 L1 := by
      unfold CG5Rules Triangle IsState at *
      rw [Nat.even_iff] at *
      omega
    rw [if_pos ((cgZero_iff h1 h2 h3).2 hz), if_pos ((cgZero_iff h3 h2 h1).2 hz')]
    simp [Except.map]

/-- C53.  Exchanging the first and third label multiplies by the exchange factor; if one of
the two calls raises, so does the other, with the same exception. -/
theorem C53_exchange (fs : FileSys) (dir : Option (List Char)) (cs : List CGCall)
    (v1 a1 L1 v2 a2 L2 v3 a3 L3 : ℕ) (h1 : 1 ≤ a1) (h2 : 1 ≤ a2) (h3 : 1 ≤ a3) (hv : v1 ≠ v3) :
    (CG_SO5r3 fs (v1, a1, L1) (v2, a2, L2) (v3, a3, L3)
        (runCGCalls fs cs (CGState.start dir))).1 =
      (CG_SO5r3 fs (v3, a3, L3) (v2, a2, L2) (v1, a1, L1)
        (runCGCalls fs cs (CGState.start dir))).1.map
          fun x => exchangeFactor v1 L1 L2 v3 L3 * x := by
  rw [CG_SO5r3_after, CG_SO5r3_after]
  rcases Nat.lt_or_gt_of_ne hv with h | h
  · rw [exchange_gt fs dir v3 a3 L3 v2 a2 L2 v1 a1 L1 h3 h2 h1 h]
    cases cgValue fs dir (v1, a1, L1) (v2, a2, L2) (v3, a3, L3) with
    | error e => rfl
    | ok x =>
      simp only [Except.map]
      rw [← mul_assoc, exchangeFactor_inv, one_mul]
  · exact exchange_gt fs dir v1 a1 L1 v2 a2 L2 v3 a3 L3 h1 h2 h3 h

/-- For `(1,1,2; 1,1,2 || 2,1,4)` the factor is `sqrt(14 * 5 / (5 * 9))`. -/
example : exchangeFactor 1 2 2 2 4 = Real.sqrt (14 / 9) := by
  unfold exchangeFactor
  norm_num

/-- C52.  No exception arises for labels passing the selection rules, in either order of the
seniorities, if the data file has at least one value per label. -/
theorem C52_total (fs : FileSys) (dir : Option (List Char)) (cs : List CGCall)
    (v1 a1 L1 v2 a2 L2 v3 a3 L3 : ℕ) (h : CG5Rules v1 a1 L1 v2 a2 L2 v3 a3 L3)
    (h2 : 0 < v2) (xs : List ℝ) (path : List Char)
    (hp : SO5CG_filename fs (CGState.start dir)
      ((min v1 v3 : ℕ), v2, a2, L2, (max v1 v3 : ℕ)) = .ok path)
    (hf : fs.readdata path = some xs) (labels : List Quartet)
    (hl : CGLines (min v1 v3) L2 (max v1 v3) labels) (hn : labels.length ≤ xs.length) :
    ∃ x, (CG_SO5r3 fs (v1, a1, L1) (v2, a2, L2) (v3, a3, L3)
        (runCGCalls fs cs (CGState.start dir))).1 = .ok x := by
  rcases Nat.lt_or_ge v3 v1 with hv | hv
  · rw [Nat.min_eq_right (by omega), Nat.max_eq_left (by omega)] at hp hl
    have h' : CG5Rules v3 a3 L3 v2 a2 L2 v1 a1 L1 := by
      unfold CG5Rules Triangle IsState at *
      rw [Nat.even_iff] at *
      omega
    obtain ⟨i, x, -, -, hx⟩ := C52_lookup fs dir cs v3 a3 L3 v2 a2 L2 v1 a1 L1 h' (by omega) h2 xs
      path hp hf labels hl hn
    rw [C53_exchange fs dir cs v1 a1 L1 v2 a2 L2 v3 a3 L3 h.2.2.2.1.1 h.2.2.2.2.1.1
      h.2.2.2.2.2.1 (by omega), hx]
    exact ⟨_, rfl⟩
  · rw [Nat.min_eq_left hv, Nat.max_eq_right hv] at hp hl
    obtain ⟨i, x, -, -, hx⟩ := C52_lookup fs dir cs v1 a1 L1 v2 a2 L2 v3 a3 L3 h hv h2 xs
      path hp hf labels hl hn
    exact ⟨x, hx⟩

/-- The label list of the file `SO5CG_1_1-1-2_2` has 2 entries, so 100 values suffice. -/
example : CG5Rules 1 1 2 1 1 2 2 1 4 ∧
    (∃ l, CGLines 1 2 2 l ∧ l.length = 2) ∧
    (∃ x, (CG_SO5r3 exampleFS (1, 1, 2) (1, 1, 2) (2, 1, 4) (CGState.start none)).1 = .ok x) := by
  have h : CG5Rules 1 1 2 1 1 2 2 1 4 := by
    unfold CG5Rules Triangle IsState
    decide +kernel
  have hc : CGLines 1 2 2 (cgLabels (1 : ℕ) (2 : ℕ) (2 : ℕ)) := cgLines_cgLabels 1 2 2
  have hn : (cgLabels (1 : ℕ) (2 : ℕ) (2 : ℕ)).length = 2 := by decide +kernel
  refine ⟨h, ⟨_, hc, hn⟩, ?_⟩
  exact C52_total exampleFS none [] 1 1 2 1 1 2 2 1 4 h (by decide) (List.replicate 100 0)
    _ rfl rfl _ hc (by rw [hn, List.length_replicate]; decide)

/-! ## C54 -/

/-- C54.  After any history of calls (successful or raising), a call returns (or raises) what it
returns as the first call. -/
theorem C54_order_independent (fs : FileSys) (dir : Option (List Char)) (cs : List CGCall)
    (x1 x2 x3 : Label) :
    (CG_SO5r3 fs x1 x2 x3 (runCGCalls fs cs (CGState.start dir))).1 =
      (CG_SO5r3 fs x1 x2 x3 (CGState.start dir)).1 := by
  rw [CG_SO5r3_after]
  exact (CG_SO5r3_after fs dir [] x1 x2 x3).symm

/-- C54.  The result depends on one data file only: the one of the quintet with the two outer
seniorities in ascending order. -/
theorem C54_one_file (fs fs' : FileSys) (hh : fs.home = fs'.home) (dir : Option (List Char))
    (cs cs' : List CGCall) (v1 a1 L1 v2 a2 L2 v3 a3 L3 : ℕ) (path : List Char)
    (h2 : 1 ≤ a2)
    (hp : SO5CG_filename fs (CGState.start dir)
      ((min v1 v3 : ℕ), v2, a2, L2, (max v1 v3 : ℕ)) = .ok path)
    (hf : fs.readdata path = fs'.readdata path) :
    (CG_SO5r3 fs (v1, a1, L1) (v2, a2, L2) (v3, a3, L3)
        (runCGCalls fs cs (CGState.start dir))).1 =
      (CG_SO5r3 fs' (v1, a1, L1) (v2, a2, L2) (v3, a3, L3)
        (runCGCalls fs' cs' (CGState.start dir))).1 := by
  rw [CG_SO5r3_after, CG_SO5r3_after]
  have hk : CG_key ((v1 : Int), (v2 : Int), (a2 : Int), (L2 : Int), (v3 : Int)) =
      (((min v1 v3 : ℕ) : Int), (v2 : Int), (a2 : Int), (L2 : Int), ((max v1 v3 : ℕ) : Int)) := by
    unfold CG_key
    simp only
    split_ifs with hc
    · rw [Nat.min_eq_right (by omega), Nat.max_eq_left (by omega)]
    · rw [Nat.min_eq_left (by omega), Nat.max_eq_right (by omega)]
  have hq : QuintetOk (((min v1 v3 : ℕ) : Int), (v2 : Int), (a2 : Int), (L2 : Int),
      ((max v1 v3 : ℕ) : Int)) :=
    ⟨by simp, by simp, by simp only; omega, by simp, by simp⟩
  unfold SO5CG_filename at hp
  rw [require_SO5Quintet_ok hq, py_bind_ok, get_base_directory_eq] at hp
  injection hp with hp
  have hb : baseDir fs dir = baseDir fs' dir := by unfold baseDir; rw [hh]
  have ht : keyTable fs dir (CG_key (v1, v2, a2, L2, v3)) =
      keyTable fs' dir (CG_key (v1, v2, a2, L2, v3)) := by
    rw [hk]
    unfold keyTable keyData cgPath
    have hp' : baseDir fs dir ++ SO5CG_relname (((min v1 v3 : ℕ) : Int), (v2 : Int), (a2 : Int),
      (L2 : Int), ((max v1 v3 : ℕ) : Int)) = path := hp
    rw [← hb, hp', hf]
  unfold cgValue
  simp only
  rw [ht]

/-- Two file systems that differ in another file, and the same coefficient. -/
example (f : List Char → Option (List ℝ)) (path : List Char)
    (hp : SO5CG_filename exampleFS (CGState.start none) (1, 1, 1, 2, 2) = .ok path) (cs cs' : List CGCall) :
    let fs : FileSys := ⟨fun p => if p = path then some (List.replicate 100 0) else f p, []⟩
    (CG_SO5r3 exampleFS (2, 1, 4) (1, 1, 2) (1, 1, 2) (runCGCalls exampleFS cs (CGState.start none))).1 =
      (CG_SO5r3 fs (2, 1, 4) (1, 1, 2) (1, 1, 2) (runCGCalls fs cs' (CGState.start none))).1 :=
  C54_one_file exampleFS ⟨fun p => if p = path then some (List.replicate 100 0) else f p, []⟩ rfl none cs cs'
    2 1 4 1 1 2 1 1 2 path (le_refl _) hp (by simp [exampleFS])

/-- Loading a table twice is the same as loading it once. -/
theorem C54_load_idempotent (fs : FileSys) (q : Quintet) (s s' : CGState)
    (h : load_CG_table fs q s = (.ok (), s')) : load_CG_table fs q s' = (.ok (), s') := by
  by_cases hq : QuintetOk q
  · unfold load_CG_table at h ⊢
    rw [require_SO5Quintet_ok hq, st_lift_ok] at h ⊢
    have hs' : (s'.CG_coeffs (CG_key q)).isSome = true := by
      split_ifs at h with hc
      · simp only [Prod.mk.injEq, true_and] at h
        rw [← h]; exact hc
      · rw [load_key_eq fs (CG_key_ok hq)] at h
        cases hk : keyTable fs s.base_directory (CG_key q) with
        | error e => rw [hk] at h; simp at h
        | ok d =>
          rw [hk] at h
          simp only [Prod.mk.injEq, true_and] at h
          rw [← h]
          simp
    rw [if_pos hs']
  · unfold load_CG_table at h
    rw [require_SO5Quintet_err hq, st_lift_error] at h
    simp at h

/-- A table can be loaded, so the hypothesis can be met. -/
example : ∃ s', load_CG_table exampleFS (1, 1, 1, 2, 2) (CGState.start none) = (.ok (), s') := by
  have hq : QuintetOk (1, 1, 1, 2, 2) := by unfold QuintetOk; decide
  have := load_CG_table_spec exampleFS hq (cgInv_start exampleFS none)
  have hk : ∃ d, keyTable exampleFS (CGState.start none).base_directory
      (CG_key (1, 1, 1, 2, 2)) = .ok d := ⟨_, rfl⟩
  obtain ⟨d, hd⟩ := hk
  rw [hd] at this
  obtain ⟨s', h, -⟩ := this
  exact ⟨s', h⟩

/-- Each file read belongs to a table that is present, and none was read twice. -/
def ReadsOnce (fs : FileSys) (s : CGState) : Prop :=
  s.reads.Nodup ∧ ∀ p ∈ s.reads, ∃ key, QuintetOk key ∧ (s.CG_coeffs key).isSome = true ∧
    p = cgPath fs s.base_directory key

theorem cgPath_inj (fs : FileSys) (dir : Option (List Char)) {k k' : Quintet} (hk : QuintetOk k)
    (hk' : QuintetOk k') (h : cgPath fs dir k = cgPath fs dir k') : k = k' := by
  obtain ⟨v1, v2, a2, L2, v3⟩ := k
  obtain ⟨v1', v2', a2', L2', v3'⟩ := k'
  obtain ⟨p1, p2, p3, p4, p5⟩ := hk
  obtain ⟨q1, q2, q3, q4, q5⟩ := hk'
  simp only at *
  lift v1 to ℕ using p1
  lift v2 to ℕ using p2
  lift a2 to ℕ using (by omega)
  lift L2 to ℕ using p4
  lift v3 to ℕ using p5
  lift v1' to ℕ using q1
  lift v2' to ℕ using q2
  lift a2' to ℕ using (by omega)
  lift L2' to ℕ using q4
  lift v3' to ℕ using q5
  obtain ⟨rfl, rfl, rfl, rfl, rfl⟩ := relname_inj _ _ _ _ _ _ _ _ _ _ (List.append_cancel_left h)
  rfl

theorem load_readsOnce (fs : FileSys) (q : Quintet) {s : CGState} (hs : ReadsOnce fs s) :
    ReadsOnce fs (load_CG_table fs q s).2 := by
  unfold load_CG_table
  by_cases hq : QuintetOk q
  swap
  · rw [require_SO5Quintet_err hq, st_lift_error]; exact hs
  rw [require_SO5Quintet_ok hq, st_lift_ok]
  split_ifs with hc
  · exact hs
  · rw [load_key_eq fs (CG_key_ok hq)]
    cases keyTable fs s.base_directory (CG_key q) with
    | error e => exact hs
    | ok d =>
      obtain ⟨n1, n2⟩ := hs
      have keep : ∀ p ∈ s.reads, ∃ key, QuintetOk key ∧
          (Function.update s.CG_coeffs (CG_key q) (some d) key).isSome = true ∧
          p = cgPath fs s.base_directory key := by
        intro p hp
        obtain ⟨key, k1, k2, k3⟩ := n2 p hp
        refine ⟨key, k1, ?_, k3⟩
        rw [Function.update_of_ne (by rintro rfl; exact hc k2)]
        exact k2
      simp only
      split_ifs with h2
      · refine ⟨?_, ?_⟩
        · simp only
          rw [List.nodup_append]
          refine ⟨n1, by simp, ?_⟩
          intro x hx y hy hxy
          rw [List.mem_singleton] at hy
          subst hy
          obtain ⟨key, k1, k2, k3⟩ := n2 x hx
          rw [hxy] at k3
          rw [cgPath_inj fs _ (CG_key_ok hq) k1 k3] at hc
          exact hc k2
        · intro p hp
          rcases List.mem_append.1 hp with hp | hp
          · exact keep p hp
          · rw [List.mem_singleton] at hp
            exact ⟨CG_key q, CG_key_ok hq, by simp, hp⟩
      · exact ⟨n1, keep⟩

theorem cg_readsOnce (fs : FileSys) (x1 x2 x3 : Label) {s : CGState} (hs : ReadsOnce fs s) :
    ReadsOnce fs (CG_SO5r3 fs x1 x2 x3 s).2 := by
  obtain ⟨v1, a1, L1⟩ := x1
  obtain ⟨v2, a2, L2⟩ := x2
  obtain ⟨v3, a3, L3⟩ := x3
  unfold CG_SO5r3
  simp only
  cases require_SO5Triple v1 a1 L1 with
  | error e => exact hs
  | ok _ =>
    cases require_SO5Triple v2 a2 L2 with
    | error e => exact hs
    | ok _ =>
      cases require_SO5Triple v3 a3 L3 with
      | error e => exact hs
      | ok _ =>
        simp only [st_lift_ok, dimSO5r3_ok]
        split_ifs
        · exact hs
        all_goals
          have hl := load_readsOnce fs (v1, v2, a2, L2, v3) hs
          rw [st_bind]
          revert hl
          cases load_CG_table fs (v1, v2, a2, L2, v3) s with
          | mk r s' => ?_
          intro hl
          cases r with
          | error e => exact hl
          | ok u => ?_
        · exact hl
        · simp only
          rw [st_bind]
          unfold CG_lookup
          cases (dictGet s'.CG_coeffs (v3, v2, a2, L2, v1) >>= fun d =>
            dictGet d (a3, L3, a1, L1)) with
          | error e => exact hl
          | ok c =>
            simp only
            cases CG_exchange v1 L1 L2 v3 L3 <;> exact hl

/-- C54.  Looking up coefficients and loading tables reads no data file twice. -/
theorem C54_reads_once (fs : FileSys) (dir : Option (List Char)) (cs : List CGCall)
    (h : ∀ q, CGCall.getFile q ∉ cs) : (runCGCalls fs cs (CGState.start dir)).reads.Nodup := by
  have key : ∀ (cs : List CGCall) (s : CGState), (∀ q, CGCall.getFile q ∉ cs) → ReadsOnce fs s →
      ReadsOnce fs (runCGCalls fs cs s) := by
    intro cs
    induction cs with
    | nil => intro s _ hs; exact hs
    | cons c cs ih =>
      intro s hc hs
      refine ih _ (fun q hq => hc q (List.mem_cons_of_mem _ hq)) ?_
      cases c with
      | cg x1 x2 x3 => exact cg_readsOnce fs x1 x2 x3 hs
      | load q => exact load_readsOnce fs q hs
      | getFile q => exact absurd (List.mem_cons_self ..) (hc q)
  exact (key cs _ h ⟨List.nodup_nil, fun p hp => by simp [CGState.start] at hp⟩).1

/-- A history of two lookups in the same table. -/
example : (runCGCalls exampleFS [.cg (1, 1, 2) (1, 1, 2) (2, 1, 4), .cg (2, 1, 4) (1, 1, 2) (1, 1, 2)]
    (CGState.start none)).reads.Nodup :=
  C54_reads_once exampleFS none _ (by simp)

/-! ## C55 -/

theorem scalar_value (fs : FileSys) (dir : Option (List Char)) (v a1 a3 L : ℕ)
    (h1 : IsState v a1 L) (h3 : IsState v a3 L) :
    cgValue fs dir (v, a1, L) (0, 1, 0) (v, a3, L) = .ok 1 := by
  have hb : branching 0 0 = 1 := by decide +kernel
  have hr : CG5Rules v a1 L 0 1 0 v a3 L :=
    ⟨⟨by omega, by omega, by omega⟩, ⟨by omega, by omega, by omega⟩, ⟨v, by omega⟩, h1,
      ⟨le_refl _, by rw [hb]⟩, h3⟩
  unfold cgValue
  have t2 : TripleOk (0, 1, 0) := by decide
  rw [if_neg (not_not.2 ⟨tripleOk_nat h1.1, t2, tripleOk_nat h3.1⟩)]
  have hz := cgZero_iff (v1 := v) (a1 := a1) (L1 := L) (v2 := 0) (a2 := 1) (L2 := 0) (v3 := v)
    (a3 := a3) (L3 := L) h1.1 (le_refl _) h3.1
  rw [if_neg (by
    intro hh
    exact hz.1 (by exact_mod_cast hh) hr)]
  have hk : CG_key ((v : Int), 0, 1, 0, (v : Int)) = ((v : Int), 0, 1, 0, (v : Int)) := by
    unfold CG_key; simp only; rw [if_neg (by omega)]
  simp only
  rw [hk]
  have hmem : (((a1 : Int), (L : Int), (a3 : Int), (L : Int)) : Quartet) ∈ cgLabels v (0 : ℕ) v :=
    (mem_cgLabels v 0 v _).2 ⟨a1, L, a3, L, rfl, h1, h3, ⟨by omega, by omega, by omega⟩⟩
  obtain ⟨i, hi⟩ := List.mem_iff_getElem?.1 hmem
  have hil := (List.getElem?_eq_some_iff.1 hi).1
  have hd : keyTable fs dir ((v : Int), 0, 1, 0, (v : Int)) =
      .ok (dictOf ((cgLabels v (0 : ℕ) v).zip
        (List.replicate (cgLabels v (0 : ℕ) v).length 1))) := by
    unfold keyTable keyData
    simp only
    rw [if_neg (by omega)]
    rfl
  rw [hd, py_bind_ok, if_pos (le_refl (v : Int))]
  unfold dictGet
  rw [dictOf_zip_get (v := 1) (cgLabels_nodup _ _ _) hi
    (by rw [List.getElem?_replicate, if_pos hil])]
  rfl

/-- C55 fails: with `v2 = 0` every coefficient is set to 1 (line 314), also between different
states of the same seniority and angular momentum: `(6,1,6; 0,1,0 || 6,2,6)` is 1, not 0. -/
theorem C55_scalar_fails (fs : FileSys) (dir : Option (List Char)) (cs : List CGCall) :
    (CG_SO5r3 fs (6, 1, 6) (0, 1, 0) (6, 2, 6) (runCGCalls fs cs (CGState.start dir))).1 =
      .ok 1 := by
  rw [CG_SO5r3_after]
  exact scalar_value fs dir 6 1 2 6 (by unfold IsState; decide +kernel)
    (by unfold IsState; decide +kernel)

/-- The coefficient returned for a scalar is 1 whatever the two states of the seniority and angular
momentum are, so the claim holds exactly if `a1 = a3`. -/
theorem C55_exact (fs : FileSys) (dir : Option (List Char)) (cs : List CGCall)
    (v a1 a3 L : ℕ) (h1 : IsState v a1 L) (h3 : IsState v a3 L) :
    (CG_SO5r3 fs (v, a1, L) (0, 1, 0) (v, a3, L) (runCGCalls fs cs (CGState.start dir))).1 = .ok 1 ∧
    ((CG_SO5r3 fs (v, a1, L) (0, 1, 0) (v, a3, L) (runCGCalls fs cs (CGState.start dir))).1 =
      .ok (if a1 = a3 then 1 else 0) ↔ a1 = a3) := by
  have e := scalar_value fs dir v a1 a3 L h1 h3
  rw [CG_SO5r3_after, e]
  refine ⟨rfl, fun h => ?_, fun h => by rw [if_pos h]⟩
  by_contra hc
  rw [if_neg hc] at h
  injection h with h
  exact one_ne_zero h

/-- C55, restricted to angular momenta occurring at most once in the seniority irrep (so that no
two different `a` exist), or to equal `a`; missing are different `a`, where the claim fails. -/
theorem C55_scalar_partial (fs : FileSys) (dir : Option (List Char)) (cs : List CGCall)
    (v a1 a3 L : ℕ) (h1 : IsState v a1 L) (h3 : IsState v a3 L)
    (h : a1 = a3 ∨ branching v L ≤ 1) :
    (CG_SO5r3 fs (v, a1, L) (0, 1, 0) (v, a3, L) (runCGCalls fs cs (CGState.start dir))).1 =
      .ok (if a1 = a3 then 1 else 0) := by
  have e : a1 = a3 := by
    rcases h with h | h
    · exact h
    · obtain ⟨p1, p2⟩ := h1
      obtain ⟨p3, p4⟩ := h3
      omega
  rw [CG_SO5r3_after, if_pos e]
  exact scalar_value fs dir v a1 a3 L h1 h3

/-- The first seniority with a repeated angular momentum is 6. -/
example : branching 6 6 = 2 ∧ branching 5 6 = 1 ∧ IsState 6 2 6 ∧ IsState 5 1 6 := by
  unfold IsState
  decide +kernel

/-! ## C56 -/

/-- C56.  Different quintets have different file names. -/
theorem C56_names_injective (fs : FileSys) (s : CGState) (v1 v2 a2 L2 v3 v1' v2' a2' L2' v3' : ℕ)
    (path : List Char) (h : SO5CG_filename fs s (v1, v2, a2, L2, v3) = .ok path)
    (h' : SO5CG_filename fs s (v1', v2', a2', L2', v3') = .ok path) :
    (v1, v2, a2, L2, v3) = (v1', v2', a2', L2', v3') := by
  unfold SO5CG_filename at h h'
  by_cases hq : QuintetOk ((v1 : Int), (v2 : Int), (a2 : Int), (L2 : Int), (v3 : Int))
  · by_cases hq' : QuintetOk ((v1' : Int), (v2' : Int), (a2' : Int), (L2' : Int), (v3' : Int))
    · rw [require_SO5Quintet_ok hq, py_bind_ok] at h
      rw [require_SO5Quintet_ok hq', py_bind_ok] at h'
      injection h with h
      injection h' with h'
      rw [← h'] at h
      obtain ⟨rfl, rfl, rfl, rfl, rfl⟩ := relname_inj _ _ _ _ _ _ _ _ _ _ (List.append_cancel_left h)
      rfl
    · rw [require_SO5Quintet_err hq', py_bind_error] at h'
      simp at h'
  · rw [require_SO5Quintet_err hq, py_bind_error] at h
    simp at h

/-- C56.  The path consists of the base directory, two directory names and a file name, from which
the three parsers recover the labels. -/
theorem C56_parsers (fs : FileSys) (s : CGState) (v1 v2 a2 L2 v3 : ℕ) (path : List Char)
    (h : SO5CG_filename fs s (v1, v2, a2, L2, v3) = .ok path) :
    ∃ d1 d2 f : List Char, path = get_base_directory fs s ++ d1 ++ ['/'] ++ d2 ++ ['/'] ++ f ∧
      '/' ∉ d1 ∧ '/' ∉ d2 ∧ '/' ∉ f ∧
      parse_dir1_name d1 = some (v2 : Int) ∧
      parse_dir2_name d2 = some ((v1 : Int), (v2 : Int), (v3 : Int)) ∧
      parse_datafile_name f = some ((v1 : Int), (v2 : Int), (a2 : Int), (L2 : Int), (v3 : Int)) := by
  have hu : ∀ r : List Char, ∀ d, ('_' :: r).head? = some d → d.isDigit = false :=
    head_nondigit (by decide)
  have hm : ∀ r : List Char, ∀ d, ('-' :: r).head? = some d → d.isDigit = false :=
    head_nondigit (by decide)
  have hno : ∀ n : ℕ, '/' ∉ pyStr n := by
    intro n hh
    rw [pyStr_nat] at hh
    exact absurd (toDigits_isDigit hh) (by decide)
  have hl : ∀ (c : Char) (r : List Char), matchLit [c] (c :: r) = some r := fun c r =>
    matchLit_append [c] r
  refine ⟨dir1_name v2, dir2_name v1 v2 v3, datafile_name (v1, v2, a2, L2, v3), ?_, ?_, ?_, ?_,
    ?_, ?_, ?_⟩
  · unfold SO5CG_filename at h
    cases hq : require_SO5Quintet ((v1 : Int), (v2 : Int), (a2 : Int), (L2 : Int), (v3 : Int)) with
    | error e => rw [hq] at h; simp at h
    | ok u =>
      rw [hq, py_bind_ok] at h
      injection h with h
      rw [← h]
      simp only [SO5CG_relname, List.append_assoc]
  · simp [dir1_name, hno]
  · simp [dir2_name, litSO5CG, hno]
  · simp [datafile_name, litSO5CG, hno]
  · unfold parse_dir1_name dir1_name
    rw [matchLit_append]
    have := matchNat_pyStr v2 [] head_nil
    rw [List.append_nil] at this
    simp [this, matchEnd]
  · unfold parse_dir2_name dir2_name
    have := matchNat_pyStr v3 [] head_nil
    rw [List.append_nil] at this
    simp only [List.append_assoc, matchLit_append, Option.bind_eq_bind, Option.bind_some,
      List.cons_append, List.nil_append, matchNat_pyStr _ _ (hu _), hl, this]
    simp [matchEnd]
  · unfold parse_datafile_name datafile_name
    have := matchNat_pyStr v3 [] head_nil
    rw [List.append_nil] at this
    simp only [List.append_assoc, matchLit_append, Option.bind_eq_bind, Option.bind_some,
      List.cons_append, List.nil_append, matchNat_pyStr _ _ (hu _), matchNat_pyStr _ _ (hm _), hl,
      this]
    simp [matchEnd]

/-- Every quintet has a file name, so C56_names_injective and C56_parsers apply to it. -/
example (fs : FileSys) (s : CGState) : ∃ path, SO5CG_filename fs s (1, 2, 1, 4, 3) = .ok path := ⟨_, rfl⟩

/-- C56.  Conversely a name is accepted only if it has the documented form, and the labels
returned are the numbers written in it (a final newline is tolerated). -/
theorem C56_datafile_sound (name : List Char) (v1 v2 a2 L2 v3 : Int)
    (h : parse_datafile_name name = some (v1, v2, a2, L2, v3)) :
    ∃ d1 d2 d3 d4 d5 e : List Char,
      name = "SO5CG_".toList ++ d1 ++ ['_'] ++ d2 ++ ['-'] ++ d3 ++ ['-'] ++ d4 ++ ['_'] ++ d5 ++ e ∧
      (e = [] ∨ e = ['\n']) ∧ (∀ d ∈ [d1, d2, d3, d4, d5], d ≠ [] ∧ ∀ c ∈ d, c.isDigit = true) ∧
      v1 = (Nat.ofDigitChars 10 d1 0 : ℕ) ∧ v2 = (Nat.ofDigitChars 10 d2 0 : ℕ) ∧
      a2 = (Nat.ofDigitChars 10 d3 0 : ℕ) ∧ L2 = (Nat.ofDigitChars 10 d4 0 : ℕ) ∧
      v3 = (Nat.ofDigitChars 10 d5 0 : ℕ) := by
  unfold parse_datafile_name at h
  simp only [Option.bind_eq_bind, Option.bind_eq_some_iff, Option.pure_def, Option.some.injEq,
    Prod.mk.injEq, Prod.exists] at h
  obtain ⟨s1, m1, w1, s2, m2, s3, m3, w2, s4, m4, s5, m5, w3, s6, m6, s7, m7, w4, s8, m8, s9, m9,
    w5, s10, m10, u, m11, rfl, rfl, rfl, rfl, rfl⟩ := h
  obtain ⟨d1, e1, f1, g1, i1⟩ := matchNat_eq_some m2
  obtain ⟨d2, e2, f2, g2, i2⟩ := matchNat_eq_some m4
  obtain ⟨d3, e3, f3, g3, i3⟩ := matchNat_eq_some m6
  obtain ⟨d4, e4, f4, g4, i4⟩ := matchNat_eq_some m8
  obtain ⟨d5, e5, f5, g5, i5⟩ := matchNat_eq_some m10
  refine ⟨d1, d2, d3, d4, d5, s10, ?_, matchEnd_eq_some m11, ?_, i1, i2, i3, i4, i5⟩
  · rw [matchLit_eq_some m1, e1, matchLit_eq_some m3, e2, matchLit_eq_some m5, e3,
      matchLit_eq_some m7, e4, matchLit_eq_some m9, e5]
    simp [litSO5CG]
  · intro d hd
    simp only [List.mem_cons, List.not_mem_nil, or_false] at hd
    rcases hd with rfl | rfl | rfl | rfl | rfl
    · exact ⟨f1, g1⟩
    · exact ⟨f2, g2⟩
    · exact ⟨f3, g3⟩
    · exact ⟨f4, g4⟩
    · exact ⟨f5, g5⟩

/-- The documented example: `SO5CG_1_2-1-4_3`, and a longer one. -/
example : parse_datafile_name ['S', 'O', '5', 'C', 'G', '_', '1', '_', '2', '-', '1', '-', '4',
    '_', '3'] = some (1, 2, 1, 4, 3) ∧ datafile_name (1, 2, 1, 4, 3) = ['S', 'O', '5', 'C', 'G',
    '_', '1', '_', '2', '-', '1', '-', '4', '_', '3'] ∧
    parse_datafile_name (datafile_name (10, 2, 1, 4, 12)) = some (10, 2, 1, 4, 12) := by
  decide +kernel

/-- C56.  The same for the names of the directories of the second level. -/
theorem C56_dir2_sound (name : List Char) (v1 v2 v3 : Int) (h : parse_dir2_name name = some (v1, v2, v3)) :
    ∃ d1 d2 d3 e : List Char, name = "SO5CG_".toList ++ d1 ++ ['_'] ++ d2 ++ ['_'] ++ d3 ++ e ∧
      (e = [] ∨ e = ['\n']) ∧ (∀ d ∈ [d1, d2, d3], d ≠ [] ∧ ∀ c ∈ d, c.isDigit = true) ∧
      v1 = (Nat.ofDigitChars 10 d1 0 : ℕ) ∧ v2 = (Nat.ofDigitChars 10 d2 0 : ℕ) ∧
      v3 = (Nat.ofDigitChars 10 d3 0 : ℕ) := by
  unfold parse_dir2_name at h
  simp only [Option.bind_eq_bind, Option.bind_eq_some_iff, Option.pure_def, Option.some.injEq,
    Prod.mk.injEq, Prod.exists] at h
  obtain ⟨s1, m1, w1, s2, m2, s3, m3, w2, s4, m4, s5, m5, w3, s6, m6, u, m7, rfl, rfl, rfl⟩ := h
  obtain ⟨d1, e1, f1, g1, i1⟩ := matchNat_eq_some m2
  obtain ⟨d2, e2, f2, g2, i2⟩ := matchNat_eq_some m4
  obtain ⟨d3, e3, f3, g3, i3⟩ := matchNat_eq_some m6
  refine ⟨d1, d2, d3, s6, ?_, matchEnd_eq_some m7, ?_, i1, i2, i3⟩
  · rw [matchLit_eq_some m1, e1, matchLit_eq_some m3, e2, matchLit_eq_some m5, e3]
    simp [litSO5CG]
  · intro d hd
    simp only [List.mem_cons, List.not_mem_nil, or_false] at hd
    rcases hd with rfl | rfl | rfl
    · exact ⟨f1, g1⟩
    · exact ⟨f2, g2⟩
    · exact ⟨f3, g3⟩

/-- C56.  And for those of the first level. -/
theorem C56_dir1_sound (name : List Char) (v2 : Int) (h : parse_dir1_name name = some v2) :
    ∃ d e : List Char, name = "v2=".toList ++ d ++ e ∧ (e = [] ∨ e = ['\n']) ∧ d ≠ [] ∧
      (∀ c ∈ d, c.isDigit = true) ∧ v2 = (Nat.ofDigitChars 10 d 0 : ℕ) := by
  unfold parse_dir1_name at h
  simp only [Option.bind_eq_bind, Option.bind_eq_some_iff, Option.pure_def, Option.some.injEq,
    Prod.exists] at h
  obtain ⟨s1, m1, w1, s2, m2, u, m3, rfl⟩ := h
  obtain ⟨d, e1, f1, g1, i1⟩ := matchNat_eq_some m2
  exact ⟨d, s2, by rw [matchLit_eq_some m1, e1]; simp, matchEnd_eq_some m3, f1, g1, i1⟩

example : parse_dir1_name ['v', '2', '=', '1', '0'] = some 10 ∧
    parse_dir2_name ['S', 'O', '5', 'C', 'G', '_', '1', '_', '2', '_', '1', '2'] = some (1, 2, 12) := by
  decide +kernel

/-- C56.  The files are looked for below the directory that was set last, and below `so5cg-data` in the home
directory if none was set. -/
theorem C56_base (fs : FileSys) (s : CGState) (d : List Char) (q : Quintet) (path : List Char) :
    (SO5CG_filename fs (set_base_directory d s).2 q = .ok path → d <+: path) ∧
    (s.base_directory = none → SO5CG_filename fs s q = .ok path → fs.home ++ "/so5cg-data/".toList <+: path) ∧
    (∀ s' : CGState, s'.base_directory = s.base_directory → SO5CG_filename fs s' q = SO5CG_filename fs s q) ∧
    (set_base_directory d s).1 = .ok () ∧ (set_base_directory d s).2.CG_coeffs = s.CG_coeffs := by
  have key : ∀ s : CGState, SO5CG_filename fs s q = .ok path → get_base_directory fs s <+: path := by
    intro s h
    unfold SO5CG_filename at h
    by_cases hq : QuintetOk q
    · rw [require_SO5Quintet_ok hq, py_bind_ok] at h
      injection h with h
      exact ⟨_, h⟩
    · rw [require_SO5Quintet_err hq, py_bind_error] at h
      cases h
  refine ⟨fun h => key _ h, fun hs h => ?_, fun s' hs => ?_, rfl, rfl⟩
  · have := key s h
    unfold get_base_directory at this
    rwa [hs] at this
  · unfold SO5CG_filename get_base_directory
    rw [hs]

end Acm.Props
