import Verif.Lemmas.FullAmp
import Verif.Spec.Display

/-!
# What Show_Mels prints
-/

namespace Acm

open Acm.Spec

/-- The state with more lines printed. -/
def FState.add (s : FState) (ls : List Shown) : FState :=
  ⟨s.glb, s.piMemo, s.pipiMemo, s.piqpiMemo, s.out ++ ls⟩

theorem add_nil (s : FState) : s.add [] = s := by
  unfold FState.add; rw [List.append_nil]

theorem add_add (s : FState) (a b : List Shown) : (s.add a).add b = s.add (a ++ b) := by
  unfold FState.add; simp only [List.append_assoc]

theorem print_add (l : Shown) (s : FState) : FM.print l s = (.ok (), s.add [l]) := rfl

/-- The blocks of a matrix. -/
noncomputable def blkOf (A : LBlockArray) (L2 L1 : Int) : Option Arr :=
  match A.get_block L2 L1 with
  | .ok B => some B
  | .error _ => none

theorem blk_some {A : LBlockArray} (hm : Made A.full_space) {L1 L2 : Int} (h1 : L1 ∈ A.full_space.Lvals)
    (h2 : L2 ∈ A.full_space.Lvals) : ∃ B, A.get_block L2 L1 = .ok B ∧ blkOf A L2 L1 = some B := by
  rw [← made_key hm] at h1 h2
  obtain ⟨b, hb⟩ := get_block_exists.2 h1
  obtain ⟨c, hc⟩ := get_block_exists.2 h2
  have : ∃ B, A.get_block L2 L1 = .ok B := by
    unfold LBlockArray.get_block
    rw [hc, hb]
    exact ⟨_, rfl⟩
  obtain ⟨B, hB⟩ := this
  exact ⟨B, hB, by unfold blkOf; rw [hB]⟩

theorem blk_none {A : LBlockArray} (hm : Made A.full_space) {L1 L2 : Int}
    (h : L1 ∉ A.full_space.Lvals ∨ L2 ∉ A.full_space.Lvals) : blkOf A L2 L1 = none := by
  have : ∃ e, A.get_block L2 L1 = .error e := by
    rw [← made_key hm] at h
    unfold LBlockArray.get_block
    by_cases h2 : L2 ∈ A.full_space.Lblocks.map Prod.fst
    · obtain ⟨c, hc⟩ := get_block_exists.2 h2
      rw [hc, py_bind_ok, get_block_err (h.resolve_right (not_not.2 h2))]
      exact ⟨_, rfl⟩
    · rw [get_block_err h2]
      exact ⟨_, rfl⟩
  obtain ⟨e, he⟩ := this
  unfold blkOf
  rw [he]

/-- The function that is displayed is defined on the angular momenta of the space. -/
def MelOk (A : LBlockArray) (f : MelFun) (AM : Int) (F : Int → Int → ℝ → ℝ) : Prop :=
  ∀ L1 ∈ A.full_space.Lvals, ∀ L2 ∈ A.full_space.Lvals, ∀ x, f AM L1 L2 x = .ok (F L1 L2 x)

section
variable {A : LBlockArray} (hm : Made A.full_space) {f : MelFun} {F : Int → Int → ℝ → ℝ} {scale : ℝ}

theorem melValue_ok {s : FState} (hf : MelOk A f s.glb.rat_TRopAM F) {L1 L2 n1 n2 : Int}
    (h1 : L1 ∈ A.full_space.Lvals) (h2 : L2 ∈ A.full_space.Lvals) {B : Arr} (a1 : 1 ≤ n1) (a2 : n1 ≤ B.cols)
    (a3 : 1 ≤ n2) (a4 : n2 ≤ B.rows) :
    melValue f scale B L1 L2 n1 n2 s = (.ok (F L1 L2 (B.e (n2 - 1).toNat (n1 - 1).toNat) / scale), s) := by
  have hg : B.get (n2 - 1) (n1 - 1) = .ok (B.e (n2 - 1).toNat (n1 - 1).toNat) := by
    unfold Arr.get
    simp only []
    rw [if_neg (show ¬ n2 - 1 < 0 by omega), if_neg (show ¬ n1 - 1 < 0 by omega),
      if_pos ⟨by omega, by omega, by omega, by omega⟩]
    rfl
  unfold melValue
  rw [st_bind_ok (x := FM.glb) (s := s) (s' := s) rfl, hg, st_lift_ok, hf _ h1 _ h2, st_lift_ok]
  rfl

include hm in
theorem showOne_ok {s : FState} (hf : MelOk A f s.glb.rat_TRopAM F) (L1 L2 n1 n2 : Int) :
    showOne A L1 L2 n1 n2 f scale s = (.ok (), s.add (lineFour (blkOf A) F scale L1 L2 n1 n2)) := by
  unfold showOne lineFour
  by_cases h : L1 ∈ A.full_space.Lvals ∧ L2 ∈ A.full_space.Lvals
  · obtain ⟨B, hB, hb⟩ := blk_some hm h.1 h.2
    rw [if_pos h, hB, st_lift_ok, hb]
    simp only []
    by_cases hc : 1 ≤ n1 ∧ n1 ≤ B.cols ∧ 1 ≤ n2 ∧ n2 ≤ B.rows
    · rw [if_pos hc, if_pos ⟨⟨by omega, hc.2.1⟩, by omega, hc.2.2.2⟩,
        st_bind_ok (melValue_ok hf h.1 h.2 hc.1 hc.2.1 hc.2.2.1 hc.2.2.2)]
      rfl
    · rw [if_neg hc, if_neg (fun hh => hc ⟨by omega, hh.1.2, by omega, hh.2.2⟩), add_nil]
      rfl
  · rw [if_neg h, blk_none hm (by tauto), add_nil]
    rfl

theorem rowValues_ok {s : FState} (hf : MelOk A f s.glb.rat_TRopAM F) {L1 L2 n2 : Int}
    (h1 : L1 ∈ A.full_space.Lvals) (h2 : L2 ∈ A.full_space.Lvals) {B : Arr} (a3 : 1 ≤ n2) (a4 : n2 ≤ B.rows) :
    ∀ ns : List Int, (∀ n ∈ ns, 1 ≤ n ∧ n ≤ B.cols) → rowValues f scale B L1 L2 n2 ns s
      = (.ok (ns.map fun n1 => F L1 L2 (B.e (n2 - 1).toNat (n1 - 1).toNat) / scale), s) := by
  intro ns
  induction ns with
  | nil => intro _; rfl
  | cons n ns ih =>
    intro hn
    obtain ⟨b1, b2⟩ := hn n List.mem_cons_self
    rw [rowValues, st_bind_ok (melValue_ok hf h1 h2 b1 b2 a3 a4),
      st_bind_ok (ih fun k hk => hn k (List.mem_cons_of_mem _ hk))]
    rfl

theorem pyRange_one (m : Int) : pyRange 1 (m + 1) = (List.range m.toNat).map fun k : ℕ => (k : Int) + 1 := by
  unfold pyRange
  rw [show (m + 1 - 1).toNat = m.toNat by omega]
  exact List.map_congr_left fun k _ => by show (1 : Int) + k = k + 1; omega

include hm in
theorem Row_ok {s : FState} (hf : MelOk A f s.glb.rat_TRopAM F) (L1 L2 : Int) {n2 : Int} (hn : 1 ≤ n2) (toshow : Int) :
    Show_Mels_Row A L1 L2 n2 toshow f scale s
      = (.ok ((lineRow (blkOf A) F scale toshow L1 L2 n2).length : Int),
        s.add (lineRow (blkOf A) F scale toshow L1 L2 n2)) := by
  unfold Show_Mels_Row lineRow
  by_cases h : L1 ∈ A.full_space.Lvals ∧ L2 ∈ A.full_space.Lvals
  · obtain ⟨B, hB, hb⟩ := blk_some hm h.1 h.2
    rw [if_neg (by tauto), hB, st_lift_ok, hb]
    simp only []
    unfold showRowBlock
    by_cases hc : 1 ≤ n2 ∧ n2 ≤ B.rows ∧ B.cols ≠ 0
    · rw [if_neg (by omega), if_pos hc, pyRange_one,
        st_bind_ok (rowValues_ok hf h.1 h.2 hc.1 hc.2.1 _ (by
          intro n hn'
          obtain ⟨k, hk, rfl⟩ := List.mem_map.1 hn'
          have := List.mem_range.1 hk
          omega)),
        st_bind_ok (x := FM.print _) (print_add _ _), List.map_map,
        show (min (B.cols : Int) toshow).toNat = min B.cols toshow.toNat by omega]
      rw [st_pure]
      congr 3
      · refine congrArg _ (List.map_congr_left fun k _ => ?_)
        show F L1 L2 (B.e (n2 - 1).toNat ((k : Int) + 1 - 1).toNat) / scale = _
        rw [show ((k : Int) + 1 - 1).toNat = k by omega]
    · rw [if_pos (by omega), if_neg hc, add_nil]
      rfl
  · rw [if_pos (by tauto), blk_none hm (by tauto), add_nil]
    rfl

theorem lineRow_nil {blk : Int → Int → Option Arr} {toshow L1 L2 n2 : Int} (hn : 1 ≤ n2)
    (h : lineRow blk F scale toshow L1 L2 n2 = []) {m : Int} (hm : n2 ≤ m) :
    lineRow blk F scale toshow L1 L2 m = [] := by
  unfold lineRow at h ⊢
  cases hb : blk L2 L1 with
  | none => rfl
  | some B =>
    rw [hb] at h
    simp only [] at h ⊢
    refine if_neg fun hc => ?_
    rw [if_pos ⟨hn, by omega, hc.2.2⟩] at h
    cases h

include hm in
theorem RowsLoop_ok {s : FState} (hf : MelOk A f s.glb.rat_TRopAM F) (L1 L2 toshow : Int) : ∀ (ns : List Int),
    (∀ n ∈ ns, 1 ≤ n) → ns.Pairwise (· < ·) → ∀ pre : List Shown,
    showRowsLoop A L1 L2 toshow f scale ns (s.add pre)
      = (.ok (), s.add (pre ++ ns.flatMap fun n2 => lineRow (blkOf A) F scale toshow L1 L2 n2)) := by
  intro ns
  induction ns with
  | nil => intro _ _ pre; rw [List.flatMap_nil, List.append_nil]; rfl
  | cons n ns ih =>
    intro hn hp pre
    rw [showRowsLoop, st_bind_ok (Row_ok (s := s.add pre) hm hf L1 L2 (hn n List.mem_cons_self) toshow), add_add]
    rw [List.pairwise_cons] at hp
    by_cases hl : lineRow (blkOf A) F scale toshow L1 L2 n = []
    · rw [if_pos (by rw [hl]; exact le_refl _), List.flatMap_cons, hl, List.append_nil, List.nil_append]
      have : (ns.flatMap fun n2 => lineRow (blkOf A) F scale toshow L1 L2 n2) = [] :=
        List.flatMap_eq_nil_iff.2 fun m hm' =>
          lineRow_nil (hn n List.mem_cons_self) hl (le_of_lt (hp.1 m hm'))
      rw [this, List.append_nil]
      rfl
    · rw [if_neg (by have := List.length_pos_iff.2 hl; omega), ih (fun k hk => hn k (List.mem_cons_of_mem _ hk)) hp.2,
        List.flatMap_cons, List.append_assoc]

include hm in
theorem two_ok {s : FState} (hf : MelOk A f s.glb.rat_TRopAM F) (L1 L2 toshow : Int) :
    showRowsLoop A L1 L2 toshow f scale (pyRange 1 (toshow + 1)) s
      = (.ok (), s.add (linesTwo (blkOf A) F scale toshow L1 L2)) := by
  have := RowsLoop_ok (s := s) (scale := scale) hm hf L1 L2 toshow (pyRange 1 (toshow + 1))
    (fun n hn => (mem_pyRange.1 hn).1) (pyRange_pairwise _ _) []
  rw [add_nil, List.nil_append] at this
  rw [this]
  unfold linesTwo
  rw [pyRange_one, List.flatMap_map]

include hm in
theorem L1loop_ok {s : FState} (hf : MelOk A f s.glb.rat_TRopAM F) (L2 toshow : Int) : ∀ (Ls : List Int)
    (pre : List Shown), showRowsL1 A L2 toshow f scale Ls (s.add pre)
      = (.ok (), s.add (pre ++ Ls.flatMap fun L1 => linesTwo (blkOf A) F scale toshow L1 L2)) := by
  intro Ls
  induction Ls with
  | nil => intro pre; rw [List.flatMap_nil, List.append_nil]; rfl
  | cons L Ls ih =>
    intro pre
    rw [showRowsL1, st_bind_ok (two_ok (s := s.add pre) hm hf L L2 toshow), add_add, ih, List.flatMap_cons,
      List.append_assoc]

theorem range_filter (a b : Int) (ha : 0 ≤ a) :
    pyRange a b = ((List.range b.toNat).map Int.ofNat).filter fun L => decide (a ≤ L) := by
  have e2 : (((List.range b.toNat).map Int.ofNat).filter fun L => decide (a ≤ L)).Pairwise (· < ·) := by
    refine List.Pairwise.filter _ (List.pairwise_map.2 ?_)
    exact List.pairwise_lt_range.imp fun h => Int.ofNat_lt.2 h
  refine Props.sorted_unique (pyRange_pairwise a b) e2 fun x => ?_
  rw [mem_pyRange, List.mem_filter, List.mem_map]
  constructor
  · rintro ⟨h1, h2⟩
    exact ⟨⟨x.toNat, List.mem_range.2 (by omega), Int.toNat_of_nonneg (by omega)⟩, decide_eq_true h1⟩
  · rintro ⟨⟨k, hk, rfl⟩, h2⟩
    have := List.mem_range.1 hk
    exact ⟨of_decide_eq_true h2, by show (k : Int) < b; omega⟩

include hm in
theorem Rows_ok {s : FState} (hf : MelOk A f s.glb.rat_TRopAM F) (L2 toshow : Int) :
    Show_Mels_Rows A L2 toshow f scale s
      = (.ok (), s.add (linesOne (blkOf A) F scale s.glb.rat_TRopAM toshow L2)) := by
  unfold Show_Mels_Rows
  rw [st_bind_ok (x := FM.glb) (s := s) (s' := s) rfl]
  have := L1loop_ok (s := s) (scale := scale) hm hf L2 toshow
    (pyRange (max 0 (L2 - s.glb.rat_TRopAM)) (L2 + s.glb.rat_TRopAM + 1)) []
  rw [add_nil, List.nil_append] at this
  rw [this]
  unfold linesOne
  rw [range_filter _ _ (le_max_left _ _)]
  have : ((List.range (L2 + s.glb.rat_TRopAM + 1).toNat).map Int.ofNat).filter
      (fun L => decide (max 0 (L2 - s.glb.rat_TRopAM) ≤ L))
      = ((List.range (L2 + s.glb.rat_TRopAM + 1).toNat).map Int.ofNat).filter
      (fun L1 => decide (L2 - L1 ≤ s.glb.rat_TRopAM)) := by
    refine List.filter_congr fun L hL => ?_
    obtain ⟨k, _, rfl⟩ := List.mem_map.1 hL
    have : (0 : Int) ≤ Int.ofNat k := Int.natCast_nonneg k
    exact decide_eq_decide.2 ⟨fun h => by omega, fun h => by omega⟩
  rw [this]

include hm in
theorem AllRows_ok {s : FState} (hf : MelOk A f s.glb.rat_TRopAM F) (toshow : Int) : ∀ (Ls : List Int)
    (pre : List Shown), showAllRows A toshow f scale Ls (s.add pre)
      = (.ok (), s.add (pre ++ Ls.flatMap fun L2 => linesOne (blkOf A) F scale s.glb.rat_TRopAM toshow L2)) := by
  intro Ls
  induction Ls with
  | nil => intro pre; rw [List.flatMap_nil, List.append_nil]; rfl
  | cons L Ls ih =>
    intro pre
    rw [showAllRows, st_bind_ok (Rows_ok (s := s.add pre) hm hf L toshow), add_add, ih, List.flatMap_cons,
      List.append_assoc]
    rfl

include hm in
theorem Series_ok {s : FState} (hf : MelOk A f s.glb.rat_TRopAM F) (n1 n2 Lmod : Int) : ∀ (k : ℕ) (L1 L2 : Int)
    (pre : List Shown), showSeries A n1 n2 Lmod f scale k L1 L2 (s.add pre)
      = (.ok (), s.add (pre ++ (List.range k).flatMap fun j : ℕ =>
          lineFour (blkOf A) F scale (L1 + j * Lmod) (L2 + j * Lmod) n1 n2)) := by
  intro k
  induction k with
  | zero => intro L1 L2 pre; rw [List.range_zero, List.flatMap_nil, List.append_nil]; rfl
  | succ k ih =>
    intro L1 L2 pre
    rw [showSeries, st_bind_ok (showOne_ok (s := s.add pre) hm hf L1 L2 n1 n2), add_add, ih,
      List.range_succ_eq_map, List.flatMap_cons, List.flatMap_map, List.append_assoc]
    congr 4
    · simp
    · refine List.flatMap_congr fun j _ => ?_
      congr 1 <;> push_cast <;> ring

end

end Acm
