import Verif.Model.CGSO5
import Verif.Spec.CGSO5
import Verif.Lemmas.Spherical

/-!
# Lemmas on the SO(5) > SO(3) Clebsch-Gordan tables
-/

namespace Acm

open Acm.Spec

/-! ### dictionaries -/

theorem dictOf_aux {K V : Type} [DecidableEq K] (kvs : List (K × V)) (d : PyDict K V) (k : K) :
    (kvs.map Prod.fst).Nodup →
    (∀ v, (k, v) ∈ kvs →
      kvs.foldl (fun (d : PyDict K V) kv => Function.update d kv.1 (some kv.2)) d k = some v) ∧
    (k ∉ kvs.map Prod.fst →
      kvs.foldl (fun (d : PyDict K V) kv => Function.update d kv.1 (some kv.2)) d k = d k) := by
  induction kvs generalizing d with
  | nil => intro _; exact ⟨fun v h => by simp at h, fun _ => rfl⟩
  | cons x xs ih =>
    intro hn
    rw [List.map_cons, List.nodup_cons] at hn
    obtain ⟨i1, i2⟩ := ih (Function.update d x.1 (some x.2)) hn.2
    refine ⟨fun v hv => ?_, fun hv => ?_⟩
    · rw [List.foldl_cons]
      rcases List.mem_cons.1 hv with h | h
      · subst h
        rw [i2 hn.1, Function.update_self]
      · exact i1 v h
    · rw [List.map_cons, List.mem_cons, not_or] at hv
      rw [List.foldl_cons, i2 hv.2, Function.update_of_ne hv.1]

theorem map_fst_zip_nodup {K V : Type} {ks : List K} (vs : List V) (h : ks.Nodup) :
    ((ks.zip vs).map Prod.fst).Nodup := by
  refine h.sublist ?_
  clear h
  induction ks generalizing vs with
  | nil => simp
  | cons k ks ih =>
    cases vs with
    | nil => simp
    | cons v vs => rw [List.zip_cons_cons, List.map_cons]; exact (ih vs).cons_cons k

theorem dictOf_zip_get {K V : Type} [DecidableEq K] {ks : List K} {vs : List V} (h : ks.Nodup)
    {i : ℕ} {k : K} {v : V} (hk : ks[i]? = some k) (hv : vs[i]? = some v) :
    dictOf (ks.zip vs) k = some v := by
  refine (dictOf_aux _ _ k (map_fst_zip_nodup vs h)).1 v ?_
  rw [List.mem_iff_getElem?]
  exact ⟨i, by rw [List.getElem?_zip_eq_some]; exact ⟨hk, hv⟩⟩

/-! ### labels -/

/-- `CG_labels` as a total function. -/
def cgLabels (v1 L2 v3 : Int) : List Quartet :=
  (pyRange 0 (2 * v1 + 1)).flatMap fun L1 =>
    (pyRange 1 (dimV v1 L1 + 1)).flatMap fun a1 =>
      (pyRange |L1 - L2| (min (L1 + L2) (2 * v3) + 1)).flatMap fun L3 =>
        (pyRange 1 (dimV v3 L3 + 1)).map fun a3 => (a1, L1, a3, L3)

theorem CG_labels_ok {v1 L2 v3 : Int} (h1 : 0 ≤ v1) (h2 : 0 ≤ L2) (h3 : 0 ≤ v3) :
    CG_labels v1 L2 v3 = .ok (cgLabels v1 L2 v3) := by
  unfold CG_labels cgLabels
  rw [require_nonnegint_ok h1, require_nonnegint_ok h2, require_nonnegint_ok h3]
  simp only [py_bind_ok]
  refine pyFlat_ok fun L1 _ => ?_
  rw [dimSO5r3_ok, py_bind_ok]
  refine pyFlat_ok fun a1 _ => ?_
  refine pyFlat_ok fun L3 _ => ?_
  rw [dimSO5r3_ok, py_bind_ok]
  rfl

theorem mem_cgLabels (v1 L2 v3 : ℕ) (x : Quartet) :
    x ∈ cgLabels v1 L2 v3 ↔ IsCGLine v1 L2 v3 x := by
  obtain ⟨a1, L1, a3, L3⟩ := x
  unfold cgLabels IsCGLine IsState Triangle
  simp only [List.mem_flatMap, List.mem_map, mem_pyRange, Prod.mk.injEq]
  constructor
  · rintro ⟨L1', ⟨l1, l2⟩, a1', ⟨l3, l4⟩, L3', ⟨l5, l6⟩, a3', ⟨l7, l8⟩, rfl, rfl, rfl, rfl⟩
    obtain ⟨L1n, rfl⟩ := Int.eq_ofNat_of_zero_le l1
    obtain ⟨L3n, rfl⟩ := Int.eq_ofNat_of_zero_le (le_trans (abs_nonneg _) l5)
    obtain ⟨l5a, l5b⟩ := abs_le.1 l5
    rw [dimV_eq_branching] at l4 l8
    refine ⟨a1'.toNat, L1n, a3'.toNat, L3n, ⟨by omega, rfl, by omega, rfl⟩, ⟨by omega, by omega⟩,
      ⟨by omega, by omega⟩, by omega, by omega, by omega⟩
  · rintro ⟨a1', L1', a3', L3', ⟨rfl, rfl, rfl, rfl⟩, ⟨l1, l2⟩, ⟨l3, l4⟩, t1, t2, t3⟩
    have b1 : L1' ≤ 2 * v1 := by
      by_contra hh
      rw [branching_eq_zero_of_gt (by omega)] at l2; omega
    have b3 : L3' ≤ 2 * v3 := by
      by_contra hh
      rw [branching_eq_zero_of_gt (by omega)] at l4; omega
    refine ⟨L1', by omega, a1', ?_, L3', ⟨abs_le.2 ⟨by omega, by omega⟩, by omega⟩, a3', ?_, rfl,
      rfl, rfl, rfl⟩
    · rw [dimV_eq_branching]; omega
    · rw [dimV_eq_branching]; omega

theorem cgLabels_pairwise (v1 L2 v3 : Int) : (cgLabels v1 L2 v3).Pairwise CGLineLT := by
  unfold cgLabels
  rw [List.pairwise_flatMap]
  constructor
  · intro L1 _
    rw [List.pairwise_flatMap]
    constructor
    · intro a1 _
      rw [List.pairwise_flatMap]
      constructor
      · intro L3 _
        rw [List.pairwise_map]
        refine (pyRange_pairwise _ _).imp fun {x y} h => ?_
        exact .inr ⟨rfl, .inr ⟨rfl, .inr ⟨rfl, h⟩⟩⟩
      · refine (pyRange_pairwise _ _).imp fun {x y} h => ?_
        simp only [List.mem_map]
        rintro _ ⟨p, _, rfl⟩ _ ⟨q, _, rfl⟩
        exact .inr ⟨rfl, .inr ⟨rfl, .inl h⟩⟩
    · refine (pyRange_pairwise _ _).imp fun {x y} h => ?_
      simp only [List.mem_flatMap, List.mem_map]
      rintro _ ⟨_, _, p, _, rfl⟩ _ ⟨_, _, q, _, rfl⟩
      exact .inr ⟨rfl, .inl h⟩
  · refine (pyRange_pairwise _ _).imp fun {x y} h => ?_
    simp only [List.mem_flatMap, List.mem_map]
    rintro _ ⟨_, _, _, _, p, _, rfl⟩ _ ⟨_, _, _, _, q, _, rfl⟩
    exact .inl h

theorem cgLineLT_irrefl (x : Quartet) : ¬ CGLineLT x x := by unfold CGLineLT; omega

theorem cgLabels_nodup (v1 L2 v3 : Int) : (cgLabels v1 L2 v3).Nodup :=
  (cgLabels_pairwise v1 L2 v3).imp fun h => by
    rintro rfl; exact cgLineLT_irrefl _ h

theorem cgLines_cgLabels (v1 L2 v3 : ℕ) : CGLines v1 L2 v3 (cgLabels v1 L2 v3) :=
  ⟨mem_cgLabels v1 L2 v3, cgLabels_pairwise _ _ _⟩

/-- The documented order determines the list of labels. -/
theorem cgLines_unique {v1 L2 v3 : ℕ} {l l' : List Quartet} (h : CGLines v1 L2 v3 l)
    (h' : CGLines v1 L2 v3 l') : l = l' := by
  have as : ∀ x y : Quartet, CGLineLT x y → CGLineLT y x → False := by
    intro x y; unfold CGLineLT; omega
  have nd : ∀ l : List Quartet, l.Pairwise CGLineLT → l.Nodup := fun l hl =>
    hl.imp fun h => by rintro rfl; exact cgLineLT_irrefl _ h
  have hp : l.Perm l' := (List.perm_ext_iff_of_nodup (nd _ h.2) (nd _ h'.2)).2
    fun x => (h.1 x).trans (h'.1 x).symm
  exact hp.eq_of_pairwise (fun x y _ _ h1 h2 => absurd h2 (fun h2 => as x y h1 h2)) h.2 h'.2

/-! ### one call, in terms of the table of its key -/

theorem require_SO5Triple_ok {v a L : Int} (h1 : 0 ≤ v) (h2 : 0 < a) (h3 : 0 ≤ L) :
    require_SO5Triple v a L = .ok () := by
  unfold require_SO5Triple
  rw [require_nonnegint_ok h1, require_posint_ok h2, require_nonnegint_ok h3]
  rfl

theorem require_SO5Triple_err {v a L : Int} (h : ¬ (0 ≤ v ∧ 0 < a ∧ 0 ≤ L)) :
    require_SO5Triple v a L = .error .valueError := by
  unfold require_SO5Triple
  by_cases h1 : 0 ≤ v
  · by_cases h2 : 0 < a
    · rw [require_nonnegint_ok h1, require_posint_ok h2, require_nonnegint_err (by omega)]; rfl
    · rw [require_nonnegint_ok h1, require_posint_err (by omega)]; rfl
  · rw [require_nonnegint_err (by omega)]; rfl

/-- The quintet passes `require_SO5Quintet`. -/
def QuintetOk (q : Quintet) : Prop :=
  0 ≤ q.1 ∧ 0 ≤ q.2.1 ∧ 0 < q.2.2.1 ∧ 0 ≤ q.2.2.2.1 ∧ 0 ≤ q.2.2.2.2

theorem require_SO5Quintet_ok {q : Quintet} (h : QuintetOk q) : require_SO5Quintet q = .ok () := by
  obtain ⟨v1, v2, a2, L2, v3⟩ := q
  obtain ⟨h1, h2, h3, h4, h5⟩ := h
  unfold require_SO5Quintet
  simp only at *
  rw [require_nonnegint_ok h1, require_SO5Triple_ok h2 h3 h4, require_nonnegint_ok h5]
  rfl

theorem require_SO5Quintet_err {q : Quintet} (h : ¬ QuintetOk q) :
    require_SO5Quintet q = .error .valueError := by
  obtain ⟨v1, v2, a2, L2, v3⟩ := q
  unfold QuintetOk at h
  unfold require_SO5Quintet
  simp only at h ⊢
  by_cases h1 : 0 ≤ v1
  · by_cases h2 : 0 ≤ v2 ∧ 0 < a2 ∧ 0 ≤ L2
    · rw [require_nonnegint_ok h1, require_SO5Triple_ok h2.1 h2.2.1 h2.2.2,
        require_nonnegint_err (by omega)]; rfl
    · rw [require_nonnegint_ok h1, require_SO5Triple_err h2]; rfl
  · rw [require_nonnegint_err (by omega)]; rfl

/-- The base directory in a state given by its setting. -/
def baseDir (fs : FileSys) (dir : Option (List Char)) : List Char :=
  dir.getD (fs.home ++ "/so5cg-data/".toList)

theorem get_base_directory_eq (fs : FileSys) (s : CGState) :
    get_base_directory fs s = baseDir fs s.base_directory := by
  unfold get_base_directory baseDir
  cases s.base_directory <;> rfl

/-- The path of the data file of a quintet. -/
def cgPath (fs : FileSys) (dir : Option (List Char)) (q : Quintet) : List Char :=
  baseDir fs dir ++ SO5CG_relname q

/-- The data of a key: the file's, or ones for `v2 = 0`. -/
noncomputable def keyData (fs : FileSys) (dir : Option (List Char)) (key : Quintet) : Py (List ℝ) :=
  if key.2.1 > 0 then
    match fs.readdata (cgPath fs dir key) with
    | some xs => .ok xs
    | none => .error .fileNotFoundError
  else .ok (List.replicate (cgLabels key.1 key.2.2.2.1 key.2.2.2.2).length 1)

/-- The table of a key. -/
noncomputable def keyTable (fs : FileSys) (dir : Option (List Char)) (key : Quintet) :
    Py (PyDict Quartet ℝ) :=
  (keyData fs dir key).map fun xs => dictOf ((cgLabels key.1 key.2.2.2.1 key.2.2.2.2).zip xs)

theorem load_key_eq (fs : FileSys) {key : Quintet} (hk : QuintetOk key) (s : CGState) :
    load_key fs key s = match keyTable fs s.base_directory key with
      | .ok d => (.ok (), ⟨s.base_directory, Function.update s.CG_coeffs key (some d),
          if key.2.1 > 0 then s.reads ++ [cgPath fs s.base_directory key] else s.reads⟩)
      | .error e => (.error e, s) := by
  obtain ⟨v1, v2, a2, L2, v3⟩ := key
  have hk' := hk
  obtain ⟨h1, h2, h3, h4, h5⟩ := hk
  unfold load_key keyTable keyData
  simp only
  rw [CG_labels_ok h1 h4 h5, st_lift_ok]
  by_cases hv : v2 > 0
  · simp only [hv, if_true]
    unfold SO5CG_filename
    rw [require_SO5Quintet_ok hk']
    simp only [get_base_directory_eq, py_bind_ok, py_pure]
    rw [st_bind, st_lift_ok]
    unfold readdata_float
    rw [← cgPath]
    cases hr : fs.readdata (cgPath fs s.base_directory (v1, v2, a2, L2, v3)) with
    | none => rfl
    | some xs => rfl
  · simp only [hv, if_false]
    rfl

theorem CG_key_ok {q : Quintet} (h : QuintetOk q) : QuintetOk (CG_key q) := by
  obtain ⟨v1, v2, a2, L2, v3⟩ := q
  obtain ⟨h1, h2, h3, h4, h5⟩ := h
  unfold CG_key
  simp only at *
  split_ifs
  · exact ⟨h5, h2, h3, h4, h1⟩
  · exact ⟨h1, h2, h3, h4, h5⟩

/-- The state invariant: every table entry is the one determined by the data files. -/
def CGInv (fs : FileSys) (s : CGState) : Prop :=
  ∀ key d, s.CG_coeffs key = some d → QuintetOk key ∧ keyTable fs s.base_directory key = .ok d

/-- Loading gives the table of the key or the exception of its data file. -/
theorem load_CG_table_spec (fs : FileSys) {q : Quintet} (h : QuintetOk q) {s : CGState}
    (hs : CGInv fs s) :
    match keyTable fs s.base_directory (CG_key q) with
    | .ok d => ∃ s', load_CG_table fs q s = (.ok (), s') ∧ CGInv fs s' ∧
        s'.base_directory = s.base_directory ∧ s'.CG_coeffs (CG_key q) = some d
    | .error e => load_CG_table fs q s = (.error e, s) := by
  have hk := CG_key_ok h
  unfold load_CG_table
  rw [require_SO5Quintet_ok h]
  simp only [st_lift_ok]
  cases hc : s.CG_coeffs (CG_key q) with
  | some d =>
    obtain ⟨_, h2⟩ := hs _ _ hc
    rw [h2]
    exact ⟨s, by simp, hs, rfl, hc⟩
  | none =>
    simp only [Option.isSome_none, Bool.false_eq_true, if_false]
    rw [load_key_eq fs hk]
    cases ht : keyTable fs s.base_directory (CG_key q) with
    | error e => rfl
    | ok d =>
      refine ⟨_, rfl, ?_, rfl, Function.update_self ..⟩
      intro key d' hd
      by_cases he : key = CG_key q
      · subst he
        simp only [Function.update_self, Option.some.injEq] at hd
        subst hd
        exact ⟨hk, ht⟩
      · simp only [Function.update_of_ne he] at hd
        exact hs _ _ hd

/-- The three labels pass `require_SO5Triple`. -/
def TripleOk (x : Label) : Prop := 0 ≤ x.1 ∧ 0 < x.2.1 ∧ 0 ≤ x.2.2

instance (x : Label) : Decidable (TripleOk x) := by unfold TripleOk; infer_instance

/-- The test of lines 355-358. -/
def cgZero (x1 x2 x3 : Label) : Prop :=
  x1.1 + x2.1 < x3.1 ∨ x1.1 + x3.1 < x2.1 ∨ x2.1 + x3.1 < x1.1 ∨
  x1.2.2 + x2.2.2 < x3.2.2 ∨ x1.2.2 + x3.2.2 < x2.2.2 ∨ x2.2.2 + x3.2.2 < x1.2.2 ∨
  x1.2.1 > dimV x1.1 x1.2.2 ∨ x2.2.1 > dimV x2.1 x2.2.2 ∨ x3.2.1 > dimV x3.1 x3.2.2 ∨
  is_odd (x1.1 + x2.1 + x3.1)

instance (x1 x2 x3 : Label) : Decidable (cgZero x1 x2 x3) := by unfold cgZero; infer_instance

/-- The result of `CG_SO5r3` as a function of the data files. -/
noncomputable def cgValue (fs : FileSys) (dir : Option (List Char)) (x1 x2 x3 : Label) : Py ℝ :=
  if ¬ (TripleOk x1 ∧ TripleOk x2 ∧ TripleOk x3) then .error .valueError
  else if cgZero x1 x2 x3 then .ok 0
  else do
    let d ← keyTable fs dir (CG_key (x1.1, x2.1, x2.2.1, x2.2.2, x3.1))
    if x1.1 ≤ x3.1 then dictGet d (x1.2.1, x1.2.2, x3.2.1, x3.2.2)
    else do
      let c ← dictGet d (x3.2.1, x3.2.2, x1.2.1, x1.2.2)
      let f ← CG_exchange x1.1 x1.2.2 x2.2.2 x3.1 x3.2.2
      pure (c * f)

/-- Outside the selection rules: the result is 0 and the state is untouched. -/
theorem CG_SO5r3_zero (fs : FileSys) {x1 x2 x3 : Label} (h1 : TripleOk x1) (h2 : TripleOk x2)
    (h3 : TripleOk x3) (h : cgZero x1 x2 x3) (s : CGState) :
    CG_SO5r3 fs x1 x2 x3 s = (.ok 0, s) := by
  obtain ⟨v1, a1, L1⟩ := x1
  obtain ⟨v2, a2, L2⟩ := x2
  obtain ⟨v3, a3, L3⟩ := x3
  unfold CG_SO5r3
  simp only
  rw [require_SO5Triple_ok h1.1 h1.2.1 h1.2.2, require_SO5Triple_ok h2.1 h2.2.1 h2.2.2,
    require_SO5Triple_ok h3.1 h3.2.1 h3.2.2]
  simp only [st_lift_ok, dimSO5r3_ok]
  unfold cgZero at h
  simp only at h
  rw [if_pos h]
  rfl

theorem CG_SO5r3_spec (fs : FileSys) (x1 x2 x3 : Label) {s : CGState} (hs : CGInv fs s) :
    ∃ s', CG_SO5r3 fs x1 x2 x3 s = (cgValue fs s.base_directory x1 x2 x3, s') ∧ CGInv fs s' ∧
      s'.base_directory = s.base_directory := by
  by_cases ht : TripleOk x1 ∧ TripleOk x2 ∧ TripleOk x3
  swap
  · refine ⟨s, ?_, hs, rfl⟩
    unfold cgValue
    rw [if_pos ht]
    obtain ⟨v1, a1, L1⟩ := x1
    obtain ⟨v2, a2, L2⟩ := x2
    obtain ⟨v3, a3, L3⟩ := x3
    unfold CG_SO5r3
    simp only
    by_cases h1 : TripleOk (v1, a1, L1)
    · rw [require_SO5Triple_ok h1.1 h1.2.1 h1.2.2, st_lift_ok]
      by_cases h2 : TripleOk (v2, a2, L2)
      · rw [require_SO5Triple_ok h2.1 h2.2.1 h2.2.2, st_lift_ok]
        rw [require_SO5Triple_err (fun h3 => ht ⟨h1, h2, h3⟩), st_lift_error]
      · rw [require_SO5Triple_err h2, st_lift_error]
    · rw [require_SO5Triple_err h1, st_lift_error]
  by_cases hz : cgZero x1 x2 x3
  · refine ⟨s, ?_, hs, rfl⟩
    unfold cgValue
    rw [if_neg (not_not.2 ht), if_pos hz, CG_SO5r3_zero fs ht.1 ht.2.1 ht.2.2 hz]
  · unfold cgValue
    rw [if_neg (not_not.2 ht), if_neg hz]
    obtain ⟨v1, a1, L1⟩ := x1
    obtain ⟨v2, a2, L2⟩ := x2
    obtain ⟨v3, a3, L3⟩ := x3
    obtain ⟨h1, h2, h3⟩ := ht
    have hq : QuintetOk (v1, v2, a2, L2, v3) := ⟨h1.1, h2.1, h2.2.1, h2.2.2, h3.1⟩
    have hl := load_CG_table_spec fs hq hs
    have key : ∀ (d : PyDict Quartet ℝ) (k : Quintet) (l : Quartet) (s' : CGState),
        s'.CG_coeffs k = some d → CG_lookup k l s' = (dictGet d l, s') := by
      intro d k l s' hd
      unfold CG_lookup
      have : dictGet s'.CG_coeffs k = .ok d := by unfold dictGet; rw [hd]; rfl
      rw [this]
      rfl
    unfold CG_SO5r3
    simp only
    rw [require_SO5Triple_ok h1.1 h1.2.1 h1.2.2, require_SO5Triple_ok h2.1 h2.2.1 h2.2.2,
      require_SO5Triple_ok h3.1 h3.2.1 h3.2.2]
    simp only [st_lift_ok, dimSO5r3_ok]
    unfold cgZero at hz
    simp only at hz
    rw [if_neg hz]
    cases hk : keyTable fs s.base_directory (CG_key (v1, v2, a2, L2, v3)) with
    | error e =>
      rw [hk] at hl
      exact ⟨s, st_bind_error hl, hs, rfl⟩
    | ok d =>
      rw [hk] at hl
      obtain ⟨s', e1, e2, e3, e4⟩ := hl
      refine ⟨s', ?_, e2, e3⟩
      rw [st_bind_ok e1, py_bind_ok]
      by_cases hv : v1 ≤ v3
      · rw [if_pos hv, if_pos hv]
        have : CG_key (v1, v2, a2, L2, v3) = (v1, v2, a2, L2, v3) := by
          unfold CG_key; simp only; rw [if_neg (by omega)]
        rw [this] at e4
        exact key d _ _ _ e4
      · rw [if_neg hv, if_neg hv]
        have : CG_key (v1, v2, a2, L2, v3) = (v3, v2, a2, L2, v1) := by
          unfold CG_key; simp only; rw [if_pos (by omega)]
        rw [this] at e4
        rw [st_bind, key d _ _ _ e4]
        cases dictGet d (a3, L3, a1, L1) with
        | error e => rfl
        | ok c =>
          simp only [py_bind_ok]
          cases CG_exchange v1 L1 L2 v3 L3 <;> rfl

/-- Reading a file or setting nothing keeps the table. -/
theorem get_CG_file_spec (fs : FileSys) (q : Quintet) (s : CGState) :
    (get_CG_file fs q s).2.CG_coeffs = s.CG_coeffs ∧
      (get_CG_file fs q s).2.base_directory = s.base_directory := by
  obtain ⟨v1, v2, a2, L2, v3⟩ := q
  unfold get_CG_file
  simp only
  cases require_SO5Quintet (v1, v2, a2, L2, v3) with
  | error e => exact ⟨rfl, rfl⟩
  | ok u =>
    rw [st_lift_ok, dimSO5r3_ok, st_lift_ok]
    split_ifs
    · exact ⟨rfl, rfl⟩
    · cases SO5CG_filename fs s (v1, v2, a2, L2, v3) with
      | error e => exact ⟨rfl, rfl⟩
      | ok f =>
        rw [st_lift_ok, st_bind]
        unfold readdata_float
        cases fs.readdata f with
        | none => exact ⟨rfl, rfl⟩
        | some xs =>
          simp only
          cases CG_labels v1 L2 v3 with
          | error e => exact ⟨rfl, rfl⟩
          | ok l => exact ⟨rfl, rfl⟩

end Acm

namespace Acm

open Acm.Spec

/-! ### histories -/

theorem cgInv_start (fs : FileSys) (dir : Option (List Char)) : CGInv fs (CGState.start dir) := by
  intro key d h
  simp [CGState.start] at h

theorem load_CG_table_inv (fs : FileSys) (q : Quintet) {s : CGState} (hs : CGInv fs s) :
    CGInv fs (load_CG_table fs q s).2 ∧
      (load_CG_table fs q s).2.base_directory = s.base_directory := by
  by_cases h : QuintetOk q
  · have hl := load_CG_table_spec fs h hs
    cases hk : keyTable fs s.base_directory (CG_key q) with
    | error e => rw [hk] at hl; rw [hl]; exact ⟨hs, rfl⟩
    | ok d =>
      rw [hk] at hl
      obtain ⟨s', e1, e2, e3, e4⟩ := hl
      rw [e1]; exact ⟨e2, e3⟩
  · unfold load_CG_table
    rw [require_SO5Quintet_err h, st_lift_error]
    exact ⟨hs, rfl⟩

theorem runCGCalls_inv (fs : FileSys) (cs : List CGCall) {s : CGState} (hs : CGInv fs s) :
    CGInv fs (runCGCalls fs cs s) ∧ (runCGCalls fs cs s).base_directory = s.base_directory := by
  induction cs generalizing s with
  | nil => exact ⟨hs, rfl⟩
  | cons c cs ih =>
    have h1 : CGInv fs (c.run fs s) ∧ (c.run fs s).base_directory = s.base_directory := by
      cases c with
      | cg x1 x2 x3 =>
        obtain ⟨s', e1, e2, e3⟩ := CG_SO5r3_spec fs x1 x2 x3 hs
        simp only [CGCall.run, e1]
        exact ⟨e2, e3⟩
      | load q => exact load_CG_table_inv fs q hs
      | getFile q =>
        obtain ⟨e1, e2⟩ := get_CG_file_spec fs q s
        refine ⟨?_, e2⟩
        intro key d hd
        simp only [CGCall.run] at hd ⊢
        rw [e1] at hd
        rw [e2]
        exact hs key d hd
    obtain ⟨h2, h3⟩ := ih h1.1
    exact ⟨h2, h3.trans h1.2⟩

/-- The result of a call after any history. -/
theorem CG_SO5r3_after (fs : FileSys) (dir : Option (List Char)) (cs : List CGCall)
    (x1 x2 x3 : Label) :
    (CG_SO5r3 fs x1 x2 x3 (runCGCalls fs cs (CGState.start dir))).1 =
      cgValue fs dir x1 x2 x3 := by
  obtain ⟨h1, h2⟩ := runCGCalls_inv fs cs (cgInv_start fs dir)
  obtain ⟨s', e1, -⟩ := CG_SO5r3_spec fs x1 x2 x3 h1
  rw [e1, h2]
  rfl

/-- The selection rules and the test of the code. -/
theorem cgZero_iff {v1 a1 L1 v2 a2 L2 v3 a3 L3 : ℕ} (h1 : 1 ≤ a1) (h2 : 1 ≤ a2) (h3 : 1 ≤ a3) :
    cgZero (v1, a1, L1) (v2, a2, L2) (v3, a3, L3) ↔
      ¬ CG5Rules v1 a1 L1 v2 a2 L2 v3 a3 L3 := by
  unfold cgZero CG5Rules Triangle IsState
  simp only [is_odd_iff, dimV_eq_branching, Nat.even_iff]
  omega

theorem tripleOk_nat {v a L : ℕ} (h : 1 ≤ a) : TripleOk ((v : Int), (a : Int), (L : Int)) :=
  ⟨by simp, by simp only; omega, by simp⟩

theorem CG_exchange_ok (v1 L1 L2 v3 L3 : ℕ) :
    CG_exchange v1 L1 L2 v3 L3 = .ok ((-1 : ℝ) ^ ((L3 : ℤ) + L2 - L1) *
      Real.sqrt (((v3 + 1) * (v3 + 2) * (2 * v3 + 3) / 6 : ℝ) * (2 * L1 + 1) /
        ((v1 + 1) * (v1 + 2) * (2 * v1 + 3) / 6 : ℝ) / (2 * L3 + 1))) := by
  have h5 : ∀ v : ℕ, ∃ d : ℤ, dimSO5 v = .ok d ∧
      (d : ℝ) = ((v + 1) * (v + 2) * (2 * v + 3) / 6 : ℝ) ∧ d ≠ 0 := by
    intro v
    have hs := sum_dim_branching v (2 * v + 1) (le_refl _)
    refine ⟨Int.fdiv (((v : ℤ) + 1) * (v + 2) * (2 * v + 3)) 6, ?_, ?_, ?_⟩
    · unfold dimSO5; rw [require_nonnegint_ok (by omega)]; rfl
    · rw [← hs, Int.fdiv_eq_ediv_of_nonneg _ (by decide), Int.mul_ediv_cancel_left _ (by decide)]
      have := congrArg (Int.cast : ℤ → ℝ) hs
      push_cast at this ⊢
      rw [← this]
      ring
    · rw [← hs, Int.fdiv_eq_ediv_of_nonneg _ (by decide), Int.mul_ediv_cancel_left _ (by decide)]
      intro h0
      rw [h0, mul_zero] at hs
      have : (0 : ℤ) < ((v : ℤ) + 1) * (v + 2) * (2 * v + 3) := by positivity
      omega
  have h3 : ∀ L : ℕ, dimSO3 L = .ok (2 * (L : ℤ) + 1) := by
    intro L; unfold dimSO3; rw [require_nonnegint_ok (by omega)]; rfl
  obtain ⟨d, e1, e2, e3⟩ := h5 v3
  obtain ⟨e, f1, f2, f3⟩ := h5 v1
  unfold CG_exchange
  rw [e1, f1, h3, h3]
  simp only [py_bind_ok]
  rw [if_neg (by omega)]
  simp only [py_pure, e2, f2]
  push_cast
  rfl

end Acm
