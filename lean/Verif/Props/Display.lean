import Verif.Lemmas.Display

/-!
# Properties C40, C41: displaying energies and transitions
-/

namespace Acm.Props

open Acm Acm.Spec

/-! ## C41 -/

theorem lineFour_nil {blk : Int → Int → Option Arr} {F : Int → Int → ℝ → ℝ} {scale : ℝ} {L1 L2 n1 n2 : Int}
    (h : blk L2 L1 = none ∨ n1 ≤ 0 ∨ n2 ≤ 0) : lineFour blk F scale L1 L2 n1 n2 = [] := by
  unfold lineFour
  cases hb : blk L2 L1 with
  | none => rfl
  | some B =>
    rw [hb] at h
    refine if_neg fun hc => ?_
    rcases h with h | h | h
    · cases h
    · omega
    · omega

theorem flatMap_range_extend {α : Type} (f : ℕ → List α) {m n : ℕ} (h : m ≤ n) (hz : ∀ k, m ≤ k → k < n → f k = []) :
    (List.range m).flatMap f = (List.range n).flatMap f := by
  obtain ⟨d, rfl⟩ := Nat.exists_eq_add_of_le h
  rw [List.range_add, List.flatMap_append, List.flatMap_map]
  have : (List.range d).flatMap (fun k => f (m + k)) = [] :=
    List.flatMap_eq_nil_iff.2 fun k hk => hz _ (by omega) (by have := List.mem_range.1 hk; omega)
  rw [this, List.append_nil]

theorem flatMap_range_reverse {α : Type} (f : ℕ → List α) (n : ℕ) :
    (List.range (n + 1)).flatMap (fun k => f (n - k)) = (List.range (n + 1)).reverse.flatMap f := by
  have : (List.range (n + 1)).reverse = (List.range (n + 1)).map (fun k => n - k) := by
    refine List.ext_getElem (by simp) fun i h1 h2 => ?_
    simp
  rw [this, List.flatMap_map]

theorem flatMap_reverse_extend {α : Type} (f : ℕ → List α) {m n : ℕ} (h : m ≤ n) (hz : ∀ k, m ≤ k → k < n → f k = []) :
    (List.range m).reverse.flatMap f = (List.range n).reverse.flatMap f := by
  obtain ⟨d, rfl⟩ := Nat.exists_eq_add_of_le h
  rw [List.range_add, List.reverse_append, List.flatMap_append]
  have : ((List.range d).map (fun x => m + x)).reverse.flatMap f = [] :=
    List.flatMap_eq_nil_iff.2 fun k hk => by
      obtain ⟨j, hj, rfl⟩ := List.mem_map.1 (List.mem_reverse.1 hk)
      have := List.mem_range.1 hj
      exact hz _ (by omega) (by omega)
  rw [this, List.nil_append]

theorem iquo_ok {m n : Int} (hm : 0 ≤ m) (hn : 0 < n) : iquo m n = .ok (m / n) := by
  unfold iquo
  rw [require_nonnegint_ok hm, py_bind_ok, require_posint_ok hn, py_bind_ok, Int.fdiv_eq_ediv_of_nonneg _ hn.le]
  rfl

theorem pyGet_last {Ls : List Int} {l : Int} (h : Ls.getLast? = some l) : pyGet Ls (-1) = .ok l := by
  have hne : Ls ≠ [] := fun hh => by rw [hh] at h; cases h
  have hpos : 0 < Ls.length := List.length_pos_iff.2 hne
  unfold pyGet
  rw [if_pos (by omega)]
  rw [if_pos (by omega), show ((-1 : Int) + (Ls.length : Int)).toNat = Ls.length - 1 by omega,
    ← List.getLast?_eq_getElem?, h]
  rfl

theorem le_last {Ls : List Int} (hp : Ls.Pairwise (· < ·)) {top : Int} (ht : Ls.getLast? = some top) :
    ∀ L ∈ Ls, L ≤ top := by
  obtain ⟨ys, rfl⟩ := List.getLast?_eq_some_iff.1 ht
  intro L hL
  rcases List.mem_append.1 hL with h | h
  · exact le_of_lt ((List.pairwise_append.1 hp).2.2 L h top (List.mem_singleton.2 rfl))
  · rw [List.mem_singleton.1 h]

section
variable {A : LBlockArray} (hm : Made A.full_space) {f : MelFun} {F : Int → Int → ℝ → ℝ} {scale : ℝ}

include hm in
theorem made_nonneg : ∀ L ∈ A.full_space.Lvals, 0 ≤ L := (new_iff.1 hm).2.1

include hm in
theorem five_ok {s : FState} (hf : MelOk A f s.glb.rat_TRopAM F) (hp : A.full_space.Lvals.Pairwise (· < ·))
    {top : Int} (ht : A.full_space.Lvals.getLast? = some top) {L1 L2 n1 n2 Lmod : Int} (h1 : 0 ≤ L1) (h2 : 0 ≤ L2)
    (h : Handled top [L1, L2, n1, n2, Lmod]) :
    showFive A L1 L2 n1 n2 Lmod f scale s
      = (.ok (), s.add (linesFive (blkOf A) F scale top L1 L2 n1 n2 Lmod)) := by
  have htop := le_last hp ht
  have hnn := made_nonneg hm
  have out : ∀ {K1 K2 : Int}, (top < K1 ∨ top < K2 ∨ K1 < 0 ∨ K2 < 0) → blkOf A K2 K1 = none := by
    intro K1 K2 hK
    refine blk_none hm ?_
    by_contra hc
    push Not at hc
    have := htop _ hc.1; have := htop _ hc.2; have := hnn _ hc.1; have := hnn _ hc.2
    omega
  unfold showFive linesFive
  rw [if_neg (show ¬ (L1 < 0 ∨ L2 < 0) by omega)]
  by_cases hn : n1 ≤ 0 ∨ n2 ≤ 0
  · have hz : ∀ K1 K2, lineFour (blkOf A) F scale K1 K2 n1 n2 = [] := fun K1 K2 => lineFour_nil (.inr hn)
    rw [if_pos hn]
    simp only [hz]
    have e1 : ∀ l : List ℕ, l.flatMap (fun _ => ([] : List Shown)) = [] := fun l =>
      List.flatMap_eq_nil_iff.2 fun _ _ => rfl
    rw [e1, e1, ite_self, ite_self, add_nil]
    rfl
  rw [if_neg hn]
  have run : ∀ (m : Int) (k : ℕ) (K1 K2 : Int), showSeries A n1 n2 m f scale k K1 K2 s
      = (.ok (), s.add ((List.range k).flatMap fun j : ℕ =>
          lineFour (blkOf A) F scale (K1 + j * m) (K2 + j * m) n1 n2)) := by
    intro m k K1 K2
    have := Series_ok (scale := scale) (s := s) hm hf n1 n2 m k K1 K2 []
    rw [add_nil, List.nil_append] at this
    exact this
  unfold seriesPlan
  by_cases hpos : 0 < Lmod
  · have hmax : max L1 L2 ≤ top := by
      by_contra hc
      exact h ⟨h1, h2, by omega, by omega, hpos, by omega⟩
    rw [if_pos hpos, if_pos hpos, pyGet_last ht, py_bind_ok, iquo_ok (by omega) hpos, py_bind_ok]
    show showSeries A n1 n2 Lmod f scale ((top - max L1 L2) / Lmod + 1).toNat L1 L2 s = _
    rw [run]
    have hc0 : 0 ≤ (top - max L1 L2) / Lmod := Int.ediv_nonneg (by omega) hpos.le
    have hc1 : (top - max L1 L2) / Lmod ≤ top - max L1 L2 := Int.ediv_le_self _ (by omega)
    rw [flatMap_range_extend (n := (top + 1).toNat) _ (by omega)]
    intro k hk _
    refine lineFour_nil (.inl (out ?_))
    have hk' : (top - max L1 L2) / Lmod < (k : Int) := by omega
    have := (Int.ediv_lt_iff_lt_mul hpos).1 hk'
    rcases le_total L1 L2 with hl | hl
    · rw [max_eq_right hl] at this; omega
    · rw [max_eq_left hl] at this; omega
  · rw [if_neg hpos, if_neg hpos]
    by_cases hneg : Lmod < 0
    · rw [if_pos hneg, if_pos hneg, iquo_ok (by omega) (by omega), py_bind_ok]
      obtain ⟨c, hc⟩ : ∃ c : ℕ, min L1 L2 / -Lmod = c :=
        ⟨_, (Int.toNat_of_nonneg (Int.ediv_nonneg (by omega) (by omega))).symm⟩
      show showSeries A n1 n2 (-Lmod) f scale (min L1 L2 / -Lmod + 1).toNat
        (L1 - min L1 L2 / -Lmod * -Lmod) (L2 - min L1 L2 / -Lmod * -Lmod) s = _
      have hc1 : min L1 L2 / -Lmod ≤ min L1 L2 := Int.ediv_le_self _ (by omega)
      have hc2 : ∀ k : ℕ, c < k → min L1 L2 < k * -Lmod := fun k hk =>
        (Int.ediv_lt_iff_lt_mul (by omega)).1 (by omega)
      rw [run]
      rw [hc] at hc1 ⊢
      rw [show ((c : Int) + 1).toNat = c + 1 by omega]
      have e1 : ((List.range (c + 1)).flatMap fun j : ℕ => lineFour (blkOf A) F scale
          (L1 - (c : Int) * -Lmod + j * -Lmod) (L2 - (c : Int) * -Lmod + j * -Lmod) n1 n2)
          = (List.range (c + 1)).flatMap fun j : ℕ => (fun k : ℕ => lineFour (blkOf A) F scale
            (L1 + k * Lmod) (L2 + k * Lmod) n1 n2) (c - j) := by
        refine List.flatMap_congr fun j hj => ?_
        have : j ≤ c := by have := List.mem_range.1 hj; omega
        show lineFour _ _ _ _ _ _ _ = lineFour _ _ _ _ _ _ _
        rw [Int.natCast_sub this]
        congr 1 <;> ring
      rw [e1, flatMap_range_reverse (fun k : ℕ => lineFour (blkOf A) F scale
        (L1 + k * Lmod) (L2 + k * Lmod) n1 n2), flatMap_reverse_extend (n := (min L1 L2 + 1).toNat) _ (by omega)]
      intro k hk _
      refine lineFour_nil (.inl (out ?_))
      have := hc2 k (by omega)
      have e2 : (k : Int) * -Lmod = -(k * Lmod) := by ring
      rw [e2] at this
      generalize (k : Int) * Lmod = y at *
      omega
    · rw [if_neg hneg, if_neg hneg]
      show showSeries A n1 n2 Lmod f scale ((0 : Int) + 1).toNat L1 L2 s = _
      rw [run]
      simp

/-- C41: for every designator but two kinds (see `C41_fails_row` and `C41_fails_series`), exactly the lines are
printed that the specification asks for, and nothing else happens: each value is computed from the element of the block
of the two angular momenta at the two state numbers, and what does not exist is skipped. -/
theorem C41_designator_partial {A : LBlockArray} {f : MelFun} {F : Int → Int → ℝ → ℝ} {scale : ℝ}
    {s : FState} (hm : Made A.full_space) (hp : A.full_space.Lvals.Pairwise (· < ·))
    {top : Int} (ht : A.full_space.Lvals.getLast? = some top) (hf : MelOk A f s.glb.rat_TRopAM F) (toshow : Int)
    {ent : List Int} (h : Handled top ent) :
    showDesignator A toshow f scale ent s = (.ok (), s.add
      (linesOf (blkOf A) F scale A.full_space.Lvals top s.glb.rat_TRopAM toshow ent)) := by
  have hnn := made_nonneg hm
  have neg : ∀ {K1 K2 : Int}, (K1 < 0 ∨ K2 < 0) → blkOf A K2 K1 = none := fun {K1 K2} hK => blk_none hm (by
    by_contra hc
    push Not at hc
    have := hnn _ hc.1; have := hnn _ hc.2
    omega)
  have negRow : ∀ {K1 K2 : Int} (n : Int), (K1 < 0 ∨ K2 < 0) → lineRow (blkOf A) F scale toshow K1 K2 n = [] :=
    fun n hK => by unfold lineRow; rw [neg hK]
  have negTwo : ∀ {K1 K2 : Int}, (K1 < 0 ∨ K2 < 0) → linesTwo (blkOf A) F scale toshow K1 K2 = [] :=
    fun hK => List.flatMap_eq_nil_iff.2 fun k _ => negRow _ hK
  match ent, h with
  | [], _ =>
    have := AllRows_ok (s := s) (scale := scale) hm hf toshow A.full_space.Lvals []
    rw [add_nil, List.nil_append] at this
    exact this
  | [L2], _ =>
    rw [showDesignator, linesOf]
    by_cases hL : L2 < 0
    · rw [if_pos hL]
      have : linesOne (blkOf A) F scale s.glb.rat_TRopAM toshow L2 = [] :=
        List.flatMap_eq_nil_iff.2 fun L _ => negTwo (.inr hL)
      rw [this, add_nil]
      rfl
    · rw [if_neg hL]
      exact Rows_ok hm hf L2 toshow
  | [L1, L2], _ =>
    rw [showDesignator, linesOf]
    by_cases hL : L1 < 0 ∨ L2 < 0
    · rw [if_pos hL, negTwo hL, add_nil]
      rfl
    · rw [if_neg hL]
      exact two_ok hm hf L1 L2 toshow
  | [L1, L2, n2], h =>
    rw [showDesignator, linesOf]
    by_cases hL : L1 < 0 ∨ L2 < 0
    · rw [if_pos hL, negRow _ hL, add_nil]
      rfl
    · rw [if_neg hL, st_bind_ok (Row_ok hm hf L1 L2 h toshow)]
      rfl
  | [L1, L2, n1, n2], _ =>
    rw [showDesignator, linesOf]
    by_cases hL : L1 < 0 ∨ L2 < 0
    · rw [if_pos hL, lineFour_nil (.inl (neg hL)), add_nil]
      rfl
    · rw [if_neg hL]
      exact showOne_ok hm hf L1 L2 n1 n2
  | [L1, L2, n1, n2, Lmod], h =>
    rw [showDesignator, linesOf]
    by_cases hL : L1 < 0 ∨ L2 < 0
    · rw [if_pos hL]
      unfold linesFive
      rw [if_pos hL, add_nil]
      rfl
    · rw [if_neg hL]
      exact five_ok hm hf hp ht (by omega) (by omega) h
  | _ :: _ :: _ :: _ :: _ :: _ :: _, _ => rfl

theorem designators_ok {s : FState} (hm : Made A.full_space) (hp : A.full_space.Lvals.Pairwise (· < ·))
    {top : Int} (ht : A.full_space.Lvals.getLast? = some top) (hf : MelOk A f s.glb.rat_TRopAM F) (toshow : Int) :
    ∀ (lst : List (List Int)), (∀ ent ∈ lst, Handled top ent) → ∀ pre : List Shown,
    showDesignators A toshow f scale lst (s.add pre) = (.ok (), s.add (pre ++ lst.flatMap
      (linesOf (blkOf A) F scale A.full_space.Lvals top s.glb.rat_TRopAM toshow))) := by
  intro lst
  induction lst with
  | nil => intro _ pre; rw [List.flatMap_nil, List.append_nil]; rfl
  | cons ent lst ih =>
    intro h pre
    rw [showDesignators, st_bind_ok (C41_designator_partial (s := s.add pre) hm hp ht hf toshow
      (h ent List.mem_cons_self)), add_add, ih fun e he => h e (List.mem_cons_of_mem _ he), List.flatMap_cons,
      List.append_assoc]
    rfl

/-- C41: what `Show_Mels` prints for a list of designators: nothing for the empty list, otherwise a heading
and the lines of the designators in their order. -/
theorem C41_show_partial {A : LBlockArray} {f : MelFun} {F : Int → Int → ℝ → ℝ} {scale : ℝ}
    {s : FState} (hm : Made A.full_space) (hp : A.full_space.Lvals.Pairwise (· < ·))
    {top : Int} (ht : A.full_space.Lvals.getLast? = some top) (hf : MelOk A f s.glb.rat_TRopAM F) (toshow : Int)
    (hr : A.mat.rows ≠ 0) {lst : List (List Int)} (h : ∀ ent ∈ lst, Handled top ent) :
    Show_Mels A lst toshow f scale s = (.ok (), s.add (if lst = [] then [] else .melHead scale :: lst.flatMap
      (linesOf (blkOf A) F scale A.full_space.Lvals top s.glb.rat_TRopAM toshow))) := by
  unfold Show_Mels
  by_cases hl : lst = []
  · rw [if_pos (by rw [hl]; rfl), if_pos hl, add_nil]
    rfl
  · rw [if_neg (by rwa [List.length_eq_zero_iff]), if_neg hr, if_neg hl, st_bind_ok (x := FM.print _) (print_add _ _),
      designators_ok hm hp ht hf toshow lst h]
    rfl

theorem rowValues_back {s : FState} (hf : MelOk A f s.glb.rat_TRopAM F) {L1 L2 n2 : Int}
    (h1 : L1 ∈ A.full_space.Lvals) (h2 : L2 ∈ A.full_space.Lvals) {B : Arr} (a3 : n2 ≤ 0) (a4 : 1 - (B.rows : Int) ≤ n2) :
    ∀ ns : List Int, (∀ n ∈ ns, 1 ≤ n ∧ n ≤ B.cols) → rowValues f scale B L1 L2 n2 ns s
      = (.ok (ns.map fun n1 => F L1 L2 (B.e (n2 - 1 + B.rows).toNat (n1 - 1).toNat) / scale), s) := by
  intro ns
  induction ns with
  | nil => intro _; rfl
  | cons n ns ih =>
    intro hn
    obtain ⟨b1, b2⟩ := hn n List.mem_cons_self
    have hg : B.get (n2 - 1) (n - 1) = .ok (B.e (n2 - 1 + B.rows).toNat (n - 1).toNat) := by
      unfold Arr.get
      simp only []
      rw [if_pos (show n2 - 1 < 0 by omega), if_neg (show ¬ n - 1 < 0 by omega),
        if_pos ⟨by omega, by omega, by omega, by omega⟩]
      rfl
    have hv : melValue f scale B L1 L2 n n2 s
        = (.ok (F L1 L2 (B.e (n2 - 1 + B.rows).toNat (n - 1).toNat) / scale), s) := by
      unfold melValue
      rw [st_bind_ok (x := FM.glb) (s := s) (s' := s) rfl, hg, st_lift_ok, hf _ h1 _ h2, st_lift_ok]
      rfl
    rw [rowValues, st_bind_ok hv, st_bind_ok (ih fun k hk => hn k (List.mem_cons_of_mem _ hk))]
    rfl

/-- C41 fails: for a designator of three integers with a state number `n2 ≤ 0` there is no such state, but the code
reads another row of the block, counting from the end (full_space.py line 975). -/
theorem C41_fails_row {A : LBlockArray} {f : MelFun} {F : Int → Int → ℝ → ℝ} {scale : ℝ}
    {s : FState} (hm : Made A.full_space) (hf : MelOk A f s.glb.rat_TRopAM F)
    {L1 L2 : Int} (h1 : L1 ∈ A.full_space.Lvals) (h2 : L2 ∈ A.full_space.Lvals) {B : Arr}
    (hB : A.get_block L2 L1 = .ok B) (hc : B.cols ≠ 0) {n2 : Int} (hn : n2 ≤ 0) (hr : 1 - (B.rows : Int) ≤ n2)
    (toshow : Int) :
    showDesignator A toshow f scale [L1, L2, n2] s = (.ok (), s.add [.row L1 L2 n2
      ((List.range (min B.cols toshow.toNat)).map fun k => F L1 L2 (B.e (n2 - 1 + B.rows).toNat k) / scale)]) ∧
    linesOf (blkOf A) F scale A.full_space.Lvals 0 s.glb.rat_TRopAM toshow [L1, L2, n2] = [] := by
  have hnn := made_nonneg hm
  constructor
  · rw [showDesignator, if_neg (by have := hnn _ h1; have := hnn _ h2; omega)]
    have : Show_Mels_Row A L1 L2 n2 toshow f scale s = (.ok 1, s.add [.row L1 L2 n2
        ((List.range (min B.cols toshow.toNat)).map fun k => F L1 L2 (B.e (n2 - 1 + B.rows).toNat k) / scale)]) := by
      unfold Show_Mels_Row
      rw [if_neg (by tauto), hB, st_lift_ok]
      unfold showRowBlock
      rw [if_neg (by omega), pyRange_one, st_bind_ok (rowValues_back hf h1 h2 hn hr _ (by
          intro n hn'
          obtain ⟨k, hk, rfl⟩ := List.mem_map.1 hn'
          have := List.mem_range.1 hk
          omega)),
        st_bind_ok (x := FM.print _) (print_add _ _), List.map_map,
        show (min (B.cols : Int) toshow).toNat = min B.cols toshow.toNat by omega]
      rw [st_pure]
      congr 3
      refine congrArg _ (List.map_congr_left fun k _ => ?_)
      show F L1 L2 (B.e _ ((k : Int) + 1 - 1).toNat) / scale = _
      rw [show ((k : Int) + 1 - 1).toNat = k by omega]
    rw [st_bind_ok this]
    rfl
  · rw [linesOf]
    unfold lineRow blkOf
    rw [hB]
    exact if_neg (by omega)

/-- C41 fails: a designator of five integers that starts above the largest angular momentum is not skipped, but
raises `ValueError` (full_space.py line 854), so that nothing after it is displayed. -/
theorem C41_fails_series {A : LBlockArray} {f : MelFun} {F : Int → Int → ℝ → ℝ} {scale : ℝ}
    {s : FState} (hm : Made A.full_space) (hp : A.full_space.Lvals.Pairwise (· < ·)) {top : Int}
    (ht : A.full_space.Lvals.getLast? = some top) {L1 L2 n1 n2 Lmod : Int} (h1 : 0 ≤ L1) (h2 : 0 ≤ L2) (h3 : 1 ≤ n1)
    (h4 : 1 ≤ n2) (h5 : 0 < Lmod) (h6 : top < max L1 L2) (toshow : Int) :
    showDesignator A toshow f scale [L1, L2, n1, n2, Lmod] s = (.error .valueError, s) ∧
    linesOf (blkOf A) F scale A.full_space.Lvals top s.glb.rat_TRopAM toshow [L1, L2, n1, n2, Lmod] = [] := by
  constructor
  · rw [showDesignator, if_neg (by omega)]
    unfold showFive seriesPlan iquo
    rw [if_neg (by omega), if_pos h5, pyGet_last ht, py_bind_ok, require_nonnegint_err (by omega)]
    rfl
  · rw [linesOf, linesFive, if_neg (by omega), if_pos h5]
    refine List.flatMap_eq_nil_iff.2 fun k _ => lineFour_nil (.inl (blk_none hm ?_))
    by_contra hc
    push Not at hc
    have e1 := le_last hp ht _ hc.1
    have e2 := le_last hp ht _ hc.2
    have : 0 ≤ (k : Int) * Lmod := by positivity
    omega

end

/-- A space with two states, and a matrix on it. -/
noncomputable def two24 : LBlockArray :=
  ⟨Arr.of 2 2 fun i j => 10 * i + j + 1, ⟨0, 0, 2, 2, [2, 4], [(2, 0, 1), (4, 1, 2)]⟩⟩

theorem two24_made : Made two24.full_space := by
  have e : LBlock_blocks 0 0 2 2 [2, 4] = .ok [(2, 0, 1), (4, 1, 2)] := by decide +kernel
  unfold Made LBlockFullSpace.new
  show (require_nonnegint_range 0 0 >>= fun _ => require_nonnegint_range 2 2 >>= fun _ =>
    LBlock_blocks 0 0 2 2 [2, 4] >>= fun b => pure _ : Py LBlockFullSpace) = _
  rw [e]
  rfl

theorem two24_block : ∃ B, two24.get_block 4 2 = .ok B ∧ B.rows = 1 ∧ B.cols = 1 ∧ B.e 0 0 = 11 := by
  refine ⟨two24.mat.slice 1 2 0 1, ?_, ?_, ?_, ?_⟩
  · unfold LBlockArray.get_block
    have e1 : two24.full_space.get_block_for_L 4 = .ok (1, 2) := by unfold two24; decide +kernel
    have e2 : two24.full_space.get_block_for_L 2 = .ok (0, 1) := by unfold two24; decide +kernel
    rw [e1, e2]
    rfl
  all_goals unfold two24 Arr.slice Arr.of sliceBound
  · simp
  · simp
  · norm_num

/-- The hypotheses of C41 are met; the designator `[2, 4, 1, 1]` displays the element in the second row and the first
column, `[2, 4, 2, 1]` nothing, and `[2, 4, 0]` is one of those not handled. -/
example (g : Glb) (f1 f2 f3) : let s : FState := ⟨g, f1, f2, f3, []⟩
    let f : MelFun := fun _ _ _ x => .ok (2 * x)
    MelOk two24 f s.glb.rat_TRopAM (fun _ _ x => 2 * x) ∧
    two24.full_space.Lvals.Pairwise (· < ·) ∧ two24.full_space.Lvals.getLast? = some 4 ∧ two24.mat.rows ≠ 0 ∧
    Handled 4 [2, 4, 1, 1] ∧ ¬ Handled 4 [2, 4, 0] ∧ ¬ Handled 4 [6, 4, 1, 1, 2] ∧
    (Show_Mels two24 [[2, 4, 1, 1], [2, 4, 2, 1]] 4 f 1 s).2.out = [.melHead 1, .mel 2 1 4 1 22] := by
  intro s f
  have hf : MelOk two24 f s.glb.rat_TRopAM (fun _ _ x => 2 * x) := fun _ _ _ _ _ => rfl
  have hp : two24.full_space.Lvals.Pairwise (· < ·) := by unfold two24; decide
  have hl : two24.full_space.Lvals.getLast? = some 4 := rfl
  have hr : two24.mat.rows ≠ 0 := by decide
  refine ⟨hf, hp, hl, hr, trivial, (by unfold Handled; omega), (by unfold Handled; simp), ?_⟩
  rw [C41_show_partial two24_made hp hl hf 4 hr (by simp [Handled])]
  obtain ⟨B, b1, b2, b3, b4⟩ := two24_block
  have hb : blkOf two24 4 2 = some B := by unfold blkOf; rw [b1]
  show ([] ++ _ : List Shown) = _
  rw [if_neg (by simp), List.nil_append, List.flatMap_cons, List.flatMap_cons, List.flatMap_nil, linesOf, linesOf, lineFour,
    lineFour, hb]
  simp only []
  rw [if_pos (by rw [b2, b3]; decide), if_neg (by rw [b2, b3]; decide)]
  have : B.e (1 - 1 : Int).toNat (1 - 1 : Int).toNat = 11 := b4
  rw [this]
  norm_num

/-! ## C40 -/

theorem foldl_min_spec : ∀ (xs : List ℝ) (x : ℝ), (xs.foldl min x = x ∨ xs.foldl min x ∈ xs) ∧
    xs.foldl min x ≤ x ∧ ∀ y ∈ xs, xs.foldl min x ≤ y
  | [], x => ⟨.inl rfl, le_refl _, fun y hy => by cases hy⟩
  | z :: xs, x => by
    obtain ⟨h1, h2, h3⟩ := foldl_min_spec xs (min x z)
    rw [List.foldl_cons]
    refine ⟨?_, h2.trans (min_le_left _ _), fun y hy => ?_⟩
    · rcases h1 with h1 | h1
      · rcases min_choice x z with h | h
        · left; rw [h1, h]
        · right; rw [h1, h]; exact List.mem_cons_self
      · exact .inr (List.mem_cons_of_mem _ h1)
    · rcases List.mem_cons.1 hy with rfl | hy
      · exact h2.trans (min_le_right _ _)
      · exact h3 y hy

theorem head_le {vals : List ℝ} (hp : vals.Pairwise (· ≤ ·)) {h : ℝ} (hh : vals.head? = some h) :
    ∀ x ∈ vals, h ≤ x := by
  cases vals with
  | nil => cases hh
  | cons y ys =>
    injection hh with hh
    subst hh
    intro x hx
    rcases List.mem_cons.1 hx with rfl | hx
    · exact le_refl _
    · exact (List.pairwise_cons.1 hp).1 x hx

/-- C40: if each list of eigenvalues is increasing and there is at least one eigenvalue, `min_head` returns
the lowest of all eigenvalues. -/
theorem C40_min_head {alist : List (List ℝ)} (hs : ∀ vals ∈ alist, vals.Pairwise (· ≤ ·))
    (hne : ∃ vals ∈ alist, vals ≠ []) :
    ∃ m, min_head alist = .ok m ∧ (∃ vals ∈ alist, vals.head? = some m) ∧ ∀ vals ∈ alist, ∀ x ∈ vals, m ≤ x := by
  unfold min_head
  have hmem : ∀ y, y ∈ alist.filterMap List.head? ↔ ∃ vals ∈ alist, vals.head? = some y := fun y => List.mem_filterMap
  cases hf : alist.filterMap List.head? with
  | nil =>
    obtain ⟨vals, hv, hn⟩ := hne
    cases vals with
    | nil => exact absurd rfl hn
    | cons y ys =>
      have := (hmem y).2 ⟨_, hv, rfl⟩
      rw [hf] at this
      cases this
  | cons x xs =>
    obtain ⟨h1, h2, h3⟩ := foldl_min_spec xs x
    rw [hf] at hmem
    refine ⟨xs.foldl min x, rfl, (hmem _).1 ?_, fun vals hv y hy => ?_⟩
    · rcases h1 with h1 | h1
      · rw [h1]; exact List.mem_cons_self
      · exact List.mem_cons_of_mem _ h1
    · cases vals with
      | nil => cases hy
      | cons z zs =>
        have hz := head_le (hs _ hv) (h := z) rfl y hy
        have := (hmem z).2 ⟨_, hv, rfl⟩
        refine le_trans ?_ hz
        rcases List.mem_cons.1 this with h | h
        · rw [h]; exact h2
        · exact h3 z h

/-- Without any eigenvalue, it raises `ValueError`. -/
theorem C40_min_head_empty {alist : List (List ℝ)} (h : ∀ vals ∈ alist, vals = []) :
    min_head alist = .error .valueError := by
  unfold min_head
  have : alist.filterMap List.head? = [] := by
    rw [List.filterMap_eq_nil_iff]
    intro vals hv
    rw [h vals hv]
    rfl
  rw [this]
  rfl

/-- What `Show_Eigs` prints below the heading. -/
theorem eigsLoop_ok (low sft : ℝ) (L_min L_top toshow : Int) : ∀ (r : List (Int × List ℝ)) (s : FState),
    showEigsLoop low sft L_min L_top toshow r s = (.ok (), s.add
      ((r.filter fun x => decide (L_min ≤ x.1 ∧ x.1 ≤ L_top)).map fun x =>
        .eigs x.1 ((x.2.take toshow.toNat).map fun val => (val - low) / sft)))
  | [], s => by rw [List.filter_nil, List.map_nil, add_nil]; rfl
  | (L, vals) :: r, s => by
    rw [showEigsLoop]
    by_cases h : L_min ≤ L ∧ L ≤ L_top
    · rw [if_pos h, st_bind_ok (x := FM.print _) (print_add _ _), eigsLoop_ok low sft L_min L_top toshow r, add_add,
        List.filter_cons_of_pos (by simpa using h)]
      rfl
    · rw [if_neg h, eigsLoop_ok low sft L_min L_top toshow r, List.filter_cons_of_neg (by simpa using h)]

/-- `Show_Eigs` for all angular momenta, of energies relative to the lowest: a heading and one line for each L, and the
lowest energy is returned. -/
theorem C40_show {vals : List (List ℝ)} {Ls : List Int} (hL : ∀ L ∈ Ls, 0 ≤ L ∧ L ≤ 1000000) {toshow : Int} (ht : 0 < toshow)
    (hl : vals.length = Ls.length) (hn : vals ≠ []) {s : FState} (hrel : s.glb.eig_rel = true) {low : ℝ}
    (hm : min_head vals = .ok low) :
    Show_Eigs vals Ls toshow none none s = (.ok (some low), s.add (.eigHead (some low) s.glb.eig_sft ::
      (Ls.zip vals).map fun x => .eigs x.1 ((x.2.take toshow.toNat).map fun val => (val - low) / s.glb.eig_sft))) := by
  have hlen : 0 < vals.length := List.length_pos_iff.2 hn
  unfold Show_Eigs
  rw [require_nonnegint_ok ht.le, st_lift_ok, if_neg (by omega)]
  show (StPy.lift (require_nonnegint_range 0 1000000) >>= fun _ => _ : FM _) s = _
  rw [require_nonnegint_range_ok (by norm_num) (by norm_num), st_lift_ok]
  have hany : (Ls.any fun L => decide ((eigBounds none none).1 ≤ L ∧ L ≤ (eigBounds none none).2.2)) = true := by
    cases Ls with
    | nil => simp at hl; exact absurd hl hn
    | cons L Ls =>
      rw [List.any_cons, Bool.or_eq_true]
      exact .inl (decide_eq_true (hL L List.mem_cons_self))
  rw [if_pos hany]
  unfold showEigsBody
  rw [st_bind_ok (x := FM.glb) (s := s) (s' := s) rfl, if_pos hrel, hm, st_lift_ok,
    st_bind_ok (x := FM.print _) (print_add _ _), st_bind_ok (eigsLoop_ok _ _ _ _ _ _ _), add_add]
  have : ((Ls.zip vals).filter fun x => decide ((eigBounds none none).1 ≤ x.1 ∧ x.1 ≤ (eigBounds none none).2.2))
      = Ls.zip vals :=
    List.filter_eq_self.2 fun x hx => decide_eq_true (hL x.1 (List.of_mem_zip hx).1)
  rw [this]
  rfl

/-- The same for energies that are not relative: 0 takes the place of the lowest energy, and the heading says so. -/
theorem C40_show_absolute {vals : List (List ℝ)} {Ls : List Int} (hL : ∀ L ∈ Ls, 0 ≤ L ∧ L ≤ 1000000) {toshow : Int}
    (ht : 0 < toshow) (hl : vals.length = Ls.length) (hn : vals ≠ []) {s : FState} (hrel : s.glb.eig_rel = false) :
    Show_Eigs vals Ls toshow none none s = (.ok (some 0), s.add (.eigHead none s.glb.eig_sft ::
      (Ls.zip vals).map fun x => .eigs x.1 ((x.2.take toshow.toNat).map fun val => val / s.glb.eig_sft))) := by
  have hlen : 0 < vals.length := List.length_pos_iff.2 hn
  unfold Show_Eigs
  rw [require_nonnegint_ok ht.le, st_lift_ok, if_neg (by omega)]
  show (StPy.lift (require_nonnegint_range 0 1000000) >>= fun _ => _ : FM _) s = _
  rw [require_nonnegint_range_ok (by norm_num) (by norm_num), st_lift_ok]
  have hany : (Ls.any fun L => decide ((eigBounds none none).1 ≤ L ∧ L ≤ (eigBounds none none).2.2)) = true := by
    cases Ls with
    | nil => simp at hl; exact absurd hl hn
    | cons L Ls =>
      rw [List.any_cons, Bool.or_eq_true]
      exact .inl (decide_eq_true (hL L List.mem_cons_self))
  rw [if_pos hany]
  unfold showEigsBody
  rw [st_bind_ok (x := FM.glb) (s := s) (s' := s) rfl, if_neg (by rw [hrel]; simp),
    st_bind_ok (x := FM.print _) (print_add _ _), st_bind_ok (eigsLoop_ok _ _ _ _ _ _ _), add_add]
  have : ((Ls.zip vals).filter fun x => decide ((eigBounds none none).1 ≤ x.1 ∧ x.1 ≤ (eigBounds none none).2.2))
      = Ls.zip vals :=
    List.filter_eq_self.2 fun x hx => decide_eq_true (hL x.1 (List.of_mem_zip hx).1)
  rw [this]
  simp only [sub_zero]
  rfl

/-- C40: the displayed relative energies are not negative, and one of them is 0 (for a positive scale and at
least one level displayed per L). -/
theorem C40_relative {vals : List (List ℝ)} {Ls : List Int} (hL : ∀ L ∈ Ls, 0 ≤ L ∧ L ≤ 1000000) {toshow : Int}
    (ht : 0 < toshow) (hl : vals.length = Ls.length) (hs : ∀ v ∈ vals, v.Pairwise (· ≤ ·)) (hne : ∃ v ∈ vals, v ≠ [])
    {s : FState} (hrel : s.glb.eig_rel = true) (hsft : 0 < s.glb.eig_sft) :
    ∃ low lines, Show_Eigs vals Ls toshow none none s = (.ok (some low), s.add (.eigHead (some low) s.glb.eig_sft :: lines)) ∧
      (∃ v ∈ vals, low ∈ v) ∧ (∀ v ∈ vals, ∀ x ∈ v, low ≤ x) ∧
      lines.length = vals.length ∧ (∀ l ∈ lines, ∃ L es, l = .eigs L es ∧ ∀ e ∈ es, 0 ≤ e) ∧
      ∃ L es, Shown.eigs L es ∈ lines ∧ (0 : ℝ) ∈ es := by
  obtain ⟨m, h1, ⟨v, hv, h2⟩, h3⟩ := C40_min_head hs hne
  have hn : vals ≠ [] := fun hh => by rw [hh] at hv; cases hv
  have hmv : m ∈ v := List.mem_of_mem_head? h2
  refine ⟨m, _, C40_show hL ht hl hn hrel h1, ⟨v, hv, hmv⟩, h3, by simp [hl], fun l hl' => ?_, ?_⟩
  · obtain ⟨x, hx, rfl⟩ := List.mem_map.1 hl'
    refine ⟨_, _, rfl, fun e he => ?_⟩
    obtain ⟨y, hy, rfl⟩ := List.mem_map.1 he
    have := h3 _ (List.of_mem_zip hx).2 y (List.mem_of_mem_take hy)
    exact div_nonneg (by linarith) hsft.le
  · obtain ⟨L, hLv⟩ : ∃ L, (L, v) ∈ Ls.zip vals := by
      have : v ∈ (Ls.zip vals).map Prod.snd := by rw [List.map_snd_zip (by omega)]; exact hv
      obtain ⟨x, hx, rfl⟩ := List.mem_map.1 this
      exact ⟨x.1, hx⟩
    refine ⟨_, _, List.mem_map.2 ⟨_, hLv, rfl⟩, List.mem_map.2 ⟨m, ?_, by rw [sub_self, zero_div]⟩⟩
    cases v with
    | nil => cases h2
    | cons y ys =>
      injection h2 with h2
      subst h2
      obtain ⟨k, hk⟩ : ∃ k, toshow.toNat = k + 1 := ⟨toshow.toNat - 1, by omega⟩
      show y ∈ (y :: ys).take toshow.toNat
      rw [hk, List.take_succ_cons]
      exact List.mem_cons_self

/-- The hypotheses of C40 are met by two lists of different lengths. -/
example : (∀ v ∈ [[(3 : ℝ), 5], [1, 4, 9]], v.Pairwise (· ≤ ·)) ∧ (∃ v ∈ [[(3 : ℝ), 5], [1, 4, 9]], v ≠ []) ∧
    (∀ L ∈ [(0 : Int), 2], 0 ≤ L ∧ L ≤ 1000000) ∧ Glb.init.eig_rel = true ∧ 0 < Glb.init.eig_sft ∧
    min_head [[(3 : ℝ), 5], [1, 4, 9]] = .ok 1 := by
  refine ⟨?_, ⟨_, List.mem_cons_self, by simp⟩, by simp, rfl, by unfold Glb.init; norm_num, ?_⟩
  · intro v hv
    simp only [List.mem_cons, List.not_mem_nil, or_false] at hv
    rcases hv with rfl | rfl <;> norm_num
  · show (.ok (min (3 : ℝ) 1) : Py ℝ) = _
    norm_num

/-- Every entry of the result of `DigXspace` is the result of the eigenvalue routine for some matrix. -/
theorem dig_eig {env : XEnv} {ham : OperatorSum} {a : XArgs} {s s' : FState} (hs : MemoOk env s.xs) {r : List LEig}
    (hr : DigXspace env ham a s = (.ok r, s')) :
    LegalRanges a ∧ OccupiedL a (r.map LEig.L) ∧ FOk env s' ∧ s'.out = s.out ∧ ∀ x ∈ r, ∃ H, H.rows = H.cols ∧
      Eigenlist env.la H = .ok (x.vals, x.basis) := by
  by_cases h : LegalRanges a
  swap
  · rw [C32_illegal env ham h] at hr; cases hr
  refine ⟨h, ?_⟩
  cases ht : Op_Tame ham with
  | true =>
    have ho := (C32_partial ht h hs hr).1
    unfold DigXspace at hr
    rw [check_ok h, st_lift_ok, if_pos ht] at hr
    obtain ⟨h1, h2, h3, h4⟩ := digTame_ok h _ (range_nonneg h) _ _ _ hs hr
    refine ⟨ho, h3, h4, fun x hx => ?_⟩
    obtain ⟨M, hM, hE⟩ := h2 x hx
    have hL : 0 ≤ x.L := by
      have : x.L ∈ r.map LEig.L := List.mem_map_of_mem hx
      rw [h1] at this
      exact range_nonneg h _ (List.mem_filter.1 this).1
    have hsq := allMat_square (legal_at h hL) hM
    exact ⟨M, hsq.1.trans hsq.2.1.symm, hE⟩
  | false =>
    obtain ⟨s1, e1, e2, e3, e4⟩ := liftX_rep h hs ham
    have hr0 := hr
    unfold DigXspace at hr
    rw [check_ok h, st_lift_ok, if_neg (by rw [ht]; simp)] at hr
    obtain ⟨M, s2, e5, hr⟩ := st_bind_eq_ok hr
    rw [e1] at e5
    injection e5 with e5 e6
    subst e6
    have hsq := allMat_square h e5
    obtain ⟨r', hr', hr1, _, hr3⟩ := digUntame_ok (la := env.la) h hsq _ (range_nonneg h) 0 (by rw [dim_sum]; omega)
    rw [dimRadial_eq h] at hr
    obtain ⟨hr, hs'⟩ := st_lift_eq_ok hr
    have : r' = r := by
      have := hr'.symm.trans hr
      injection this
    subst this
    subst hs'
    refine ⟨by rw [hr1]; exact occupied_Ls h, e2, e4, fun x hx => ?_⟩
    obtain ⟨H, h1, h2, h3⟩ := hr3 x hx
    exact ⟨H, h1.trans h2.symm, h3⟩

/-- C40: the lists of eigenvalues that `DigXspace` returns are increasing (under the contract of the eigenvalue
routine), as C40 requires. -/
theorem C40_sorted {env : XEnv} (hla : LinAlgOk env.la) {ham : OperatorSum} {a : XArgs} {s s' : FState}
    (hs : MemoOk env s.xs) {r : List LEig} (hr : DigXspace env ham a s = (.ok r, s')) :
    ∀ v ∈ r.map LEig.vals, v.Pairwise (· ≤ ·) := by
  intro v hv
  obtain ⟨x, hx, rfl⟩ := List.mem_map.1 hv
  obtain ⟨H, hsq, hE⟩ := (dig_eig hs hr).2.2.2.2 x hx
  obtain ⟨w, Q, e1, e2⟩ := Eigenlist_ok env.la (M := H) rfl hsq.symm
  obtain ⟨w', Q', e3, _, _, _, _, e4⟩ := C70_eigen env.la hla H.rows H rfl hsq.symm
  rw [e1] at e3
  injection e3 with e3
  injection e3 with e3 _
  subst e3
  rw [e2] at hE
  injection hE with hE
  injection hE with hE _
  rw [← hE, List.pairwise_map]
  refine List.pairwise_lt_range.imp_of_mem ?_
  intro i j hi hj hij
  exact e4 i j hij.le (List.mem_range.1 hj)

end Acm.Props
