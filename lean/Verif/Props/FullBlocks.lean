import Verif.Lemmas.FullBlocks
import Verif.Props.FullDig

/-!
# Properties C33, C34: blocks
-/

namespace Acm.Props

open Acm Acm.Spec

/-! ## C33 -/

theorem sorted_head {Ls : List Int} (h : Ls.Pairwise (· < ·)) {l0 : Int} (h0 : Ls.head? = some l0) {L : Int}
    (hL : L ∈ Ls) : l0 ≤ L := by
  cases Ls with
  | nil => cases hL
  | cons x Ls =>
    rw [List.head?_cons] at h0
    injection h0 with h0
    subst h0
    rcases List.mem_cons.1 hL with rfl | hL
    · exact le_refl _
    · exact ((List.pairwise_cons.1 h).1 L hL).le

theorem sorted_last {Ls : List Int} (h : Ls.Pairwise (· < ·)) {l1 : Int} (h1 : Ls.getLast? = some l1) {L : Int}
    (hL : L ∈ Ls) : L ≤ l1 := by
  obtain ⟨ys, rfl⟩ := List.getLast?_eq_some_iff.1 h1
  rcases List.mem_append.1 hL with hL | hL
  · exact ((List.pairwise_append.1 h).2.2 L hL l1 (by simp)).le
  · rw [List.mem_singleton] at hL; rw [hL]

theorem sorted_unique {l m : List Int} (hl : l.Pairwise (· < ·)) (hm : m.Pairwise (· < ·))
    (h : ∀ L, L ∈ l ↔ L ∈ m) : l = m :=
  hl.eq_of_mem_iff hm (fun {L} => h L)

theorem occupied_eq {a : XArgs} (h : LegalRanges a) {Ls : List Int} (ho : OccupiedL a Ls) : Ls = a.Ls :=
  sorted_unique ho.1 (Ls_sorted a) fun L => (ho.2 L).trans ((occupied_Ls h).2 L).symm

/-- The smallest range with the same states. -/
def XArgs.narrow (a : XArgs) (l0 l1 : Int) : XArgs :=
  ⟨a.anorm, a.lambda_base, a.nu_min, a.nu_max, a.v_min, a.v_max, l0, l1⟩

theorem narrow_legal {a : XArgs} (h : LegalRanges a) {Ls : List Int} (ho : OccupiedL a Ls) {l0 l1 : Int}
    (h0 : Ls.head? = some l0) (h1 : Ls.getLast? = some l1) : LegalRanges (XArgs.narrow a l0 l1) := by
  have m0 := (ho.2 l0).1 (List.mem_of_mem_head? h0)
  refine ⟨h.1, h.2.1, ?_, sorted_head ho.1 h0 (List.mem_of_getLast? h1)⟩
  show 0 ≤ l0
  have := h.2.2.1
  omega

theorem narrow_occupied {a : XArgs} {Ls : List Int} (ho : OccupiedL a Ls) {l0 l1 : Int}
    (h0 : Ls.head? = some l0) (h1 : Ls.getLast? = some l1) : OccupiedL (XArgs.narrow a l0 l1) Ls := by
  refine ⟨ho.1, fun L => ?_⟩
  have m0 := (ho.2 l0).1 (List.mem_of_mem_head? h0)
  have m1 := (ho.2 l1).1 (List.mem_of_getLast? h1)
  constructor
  · intro hL
    exact ⟨⟨sorted_head ho.1 h0 hL, sorted_last ho.1 h1 hL⟩, ((ho.2 L).1 hL).2⟩
  · rintro ⟨⟨h2, h3⟩, h4⟩
    have h2' : l0 ≤ L := h2
    have h3' : L ≤ l1 := h3
    exact (ho.2 L).2 ⟨⟨by omega, by omega⟩, h4⟩

theorem narrow_xlabels {a : XArgs} (h : LegalRanges a) {Ls : List Int} (ho : OccupiedL a Ls) {l0 l1 : Int}
    (h0 : Ls.head? = some l0) (h1 : Ls.getLast? = some l1) : (XArgs.narrow a l0 l1).xlabels = a.xlabels := by
  rw [xlabels_flat, xlabels_flat a, ← occupied_eq h ho,
    ← occupied_eq (narrow_legal h ho h0 h1) (narrow_occupied ho h0 h1)]
  rfl

theorem xlabels_at_L {a : XArgs} {L : Int} {x : XspaceLabel} (h : x ∈ (a.at L).xlabels) : x.2.2.2 = L := by
  unfold XArgs.xlabels at h
  obtain ⟨s, hs, hx⟩ := List.mem_flatMap.1 h
  obtain ⟨nu, _, rfl⟩ := List.mem_map.1 hx
  obtain ⟨v, al, K⟩ := s
  have := (mem_labelsV.1 hs).2.2
  simp only [XArgs.at] at this
  show K = L
  omega

theorem occupied_nodup {a : XArgs} {Ls : List Int} (ho : OccupiedL a Ls) : Ls.Nodup :=
  ho.1.imp fun h => h.ne

/-- C33: let `Ls` be the L values that `DigXspace` returns for a range (see C32), from `l0` to `l1`, and `xs` the
labels of the rows and columns of the transition matrix, which is computed for L from `l0` to `l1`.
These are the labels of the whole range; the block structure can be made; its dimension is the number of labels; the
block of each L in `Ls` is a range of indices of the size `dimXspace(L)`, and contains exactly the
indices of labels with this L; and every label has an L in `Ls`. -/
theorem C33_tiling {a : XArgs} (h : LegalRanges a) {Ls : List Int} (ho : OccupiedL a Ls) {l0 l1 : Int}
    (h0 : Ls.head? = some l0) (h1 : Ls.getLast? = some l1) :
    ∃ xs S, lbsXspace a.nu_min a.nu_max a.v_min a.v_max l0 (some l1) = .ok xs ∧
      lbsXspace a.nu_min a.nu_max a.v_min a.v_max a.L_min (some a.L_max) = .ok xs ∧
      LBlockFullSpace.new a.nu_min a.nu_max a.v_min a.v_max Ls = .ok S ∧ S.dim = .ok (xs.length : Int) ∧
      (∀ L ∈ Ls, ∃ b e : ℕ, S.get_block_for_L L = .ok ((b : Int), (e : Int)) ∧ b < e ∧ e ≤ xs.length ∧
        dimXspace a.nu_min a.nu_max a.v_min a.v_max L none = .ok ((e : Int) - b) ∧
        ∀ p x, xs[p]? = some x → (x.2.2.2 = L ↔ b ≤ p ∧ p < e)) ∧
      (∀ L, L ∉ Ls → S.get_block_for_L L = .error .valueError) ∧
      ∀ x ∈ xs, x.2.2.2 ∈ Ls := by
  have hle := narrow_legal h ho h0 h1
  have hnn : ∀ L ∈ Ls, 0 ≤ L := fun L hL => by
    have := ((ho.2 L).1 hL).1; have := h.2.2.1; omega
  have hflat : a.xlabels = Ls.flatMap fun L => (a.at L).xlabels := by rw [xlabels_flat, ← occupied_eq h ho]
  have hlv : LegalNuV a.nu_min a.nu_max a.v_min a.v_max := ⟨h.1, h.2.1⟩
  set d := ldim a.nu_min a.nu_max a.v_min a.v_max with hd
  let S : LBlockFullSpace := ⟨a.nu_min, a.nu_max, a.v_min, a.v_max, Ls, blocksFrom d 0 Ls⟩
  have hS : LBlockFullSpace.new a.nu_min a.nu_max a.v_min a.v_max Ls = .ok S := new_iff.2 ⟨hlv, hnn, rfl⟩
  have hlen : a.xlabels.length = (Ls.map d).sum := by
    rw [hflat, length_flatMap_sum]
    congr 1
    exact List.map_congr_left fun L _ => by rw [length_xlabels]; rfl
  refine ⟨a.xlabels, S, ?_, lbsXspace_ok h, hS, ?_, fun L hL => ?_, fun L hL => ?_, fun x hx => ?_⟩
  · have := lbsXspace_ok hle
    rw [narrow_xlabels h ho h0 h1] at this
    exact this
  · unfold LBlockFullSpace.dim
    rw [dimL_mapM hlv Ls Ls fun L hL => ⟨hnn L hL, hL⟩, py_bind_ok, hlen]
    show Except.ok (Ls.map fun L => (d L : Int)).sum = _
    congr 1
    rw [Nat.cast_list_sum, List.map_map]
    rfl
  · obtain ⟨b, hb⟩ := get_block_exists.2 (show L ∈ S.Lblocks.map Prod.fst by rw [made_key (made_of_new hS)]; exact hL)
    obtain ⟨k, rfl, hk⟩ := made_block (made_of_new hS) hb
    have hdL : 0 < d L := by
      obtain ⟨_, d', hd1, hd2⟩ := (ho.2 L).1 hL
      rw [dimXspace_ldim hlv (hnn L hL)] at hd1
      injection hd1 with hd1
      rw [hd]; omega
    refine ⟨k, k + d L, hb, by omega, by rw [hlen]; exact hk, ?_, fun p x hx => ?_⟩
    · rw [dimXspace_ldim hlv (hnn L hL)]
      congr 1
      push_cast
      ring
    · rw [hflat] at hx
      have hm := get_block_mem hb
      rw [made_blocks (made_of_new hS)] at hm
      have := flat_position (fun L => (a.at L).xlabels) (fun x => x.2.2.2) d (fun L => length_xlabels _)
        (fun L x hx => xlabels_at_L hx) Ls (occupied_nodup ho) 0 p x hx L _ _ hm
      rw [this]
      rw [Nat.zero_add, Nat.cast_le, Nat.cast_lt]
  · exact get_block_err (by rw [made_key (made_of_new hS)]; exact hL)
  · rw [hflat] at hx
    obtain ⟨L, hL, hx⟩ := List.mem_flatMap.1 hx
    rw [xlabels_at_L hx]
    exact hL

/-- The hypotheses of C33 are met: a range with L = 0, 2, 3, 4, 6 occupied, and 1, 5 not. -/
example : LegalRanges ⟨1, 5 / 2, 0, 3, 0, 3, 0, 7⟩ ∧ OccupiedL ⟨1, 5 / 2, 0, 3, 0, 3, 0, 7⟩ [0, 2, 3, 4, 6] := by
  have hl : LegalRanges ⟨1, 5 / 2, 0, 3, 0, 3, 0, 7⟩ := by unfold LegalRanges; simp
  refine ⟨hl, ?_⟩
  have : XArgs.Ls ⟨1, 5 / 2, 0, 3, 0, 3, 0, 7⟩ = [0, 2, 3, 4, 6] := by
    unfold XArgs.Ls
    have hL : ∀ L : Int, XArgs.occ ⟨1, 5 / 2, 0, 3, 0, 3, 0, 7⟩ L = decide (0 < (labelsV 0 3 L L).length) := fun _ => rfl
    rw [List.filter_congr (fun L _ => hL L)]
    decide +kernel
  rw [← this]
  exact occupied_Ls hl

/-- C33: `dimL` is the size of the block of L: the number of labels with this L if it is one of the L values of the space,
and 0 if it is not. -/
theorem C33_dimL {a : XArgs} (h : LegalRanges a) {Ls : List Int} (hnn : ∀ L ∈ Ls, 0 ≤ L) (L : Int) :
    (L ∈ Ls → ∃ xs, lbsXspace a.nu_min a.nu_max a.v_min a.v_max L (some L) = .ok xs ∧
      LBlock_dimL a.nu_min a.nu_max a.v_min a.v_max Ls L = .ok (xs.length : Int)) ∧
    (L ∉ Ls → LBlock_dimL a.nu_min a.nu_max a.v_min a.v_max Ls L = .ok 0) := by
  refine ⟨fun hL => ?_, fun hL => ?_⟩
  · refine ⟨(a.at L).xlabels, lbsXspace_ok (legal_at h (hnn L hL)), ?_⟩
    rw [LBlock_dimL, if_pos hL, dimXspace_at h (hnn L hL), length_xlabels]
  · rw [LBlock_dimL, if_neg hL]
    rfl

/-! ## C34 -/

theorem slice_nat (A : Arr) (k d m e : ℕ) : A.slice (k : Int) ((k + d : ℕ) : Int) (m : Int) ((m + e : ℕ) : Int) =
    Arr.of (min (k + d) A.rows - min k A.rows) (min (m + e) A.cols - min m A.cols)
      fun i j => A.e (min k A.rows + i) (min m A.cols + j) := by
  unfold Arr.slice
  simp only [sliceBound_nat]

theorem setBlock_nat (A B : Arr) (k d m e : ℕ) :
    A.setBlock (k : Int) ((k + d : ℕ) : Int) (m : Int) ((m + e : ℕ) : Int) B =
    if B.rows = min (k + d) A.rows - min k A.rows ∧ B.cols = min (m + e) A.cols - min m A.cols then
      .ok ⟨A.rows, A.cols, fun i j =>
        if (min k A.rows ≤ i ∧ i < min (k + d) A.rows) ∧ (min m A.cols ≤ j ∧ j < min (m + e) A.cols) then
          B.e (i - min k A.rows) (j - min m A.cols) else A.e i j⟩
    else .error .valueError := by
  unfold Arr.setBlock
  simp only [sliceBound_nat]
  rfl

/-- C34: a block can be written exactly if its shape is that of the block that would be read. -/
theorem C34_accepts {A : LBlockArray} (hA : Made A.full_space) (Lr Lc : Int) (B : Arr) :
    (∃ A', A.set_block Lr Lc B = .ok A') ↔
      ∃ G, A.get_block Lr Lc = .ok G ∧ B.rows = G.rows ∧ B.cols = G.cols := by
  unfold LBlockArray.set_block LBlockArray.get_block
  cases hr : A.full_space.get_block_for_L Lr with
  | error e => constructor <;> rintro ⟨_, h⟩ <;> simp at h
  | ok r =>
    cases hc : A.full_space.get_block_for_L Lc with
    | error e => constructor <;> rintro ⟨_, h⟩ <;> simp at h
    | ok c =>
      obtain ⟨k, rfl, _⟩ := made_block hA hr
      obtain ⟨m, rfl, _⟩ := made_block hA hc
      simp only [py_bind_ok, setBlock_nat, slice_nat]
      constructor
      · rintro ⟨A', h⟩
        split_ifs at h with hs
        · exact ⟨_, rfl, hs⟩
        · cases h
      · rintro ⟨G, h, h1, h2⟩
        injection h with h
        subst h
        rw [if_pos ⟨h1, h2⟩]
        exact ⟨_, rfl⟩

/-- C34: the block that was written is read back, and every other block is what it was. -/
theorem C34_set_get {A A' : LBlockArray} (hA : Made A.full_space) {Lr Lc : Int} {B : Arr}
    (h : A.set_block Lr Lc B = .ok A') :
    (∃ G, A'.get_block Lr Lc = .ok G ∧ G.rows = B.rows ∧ G.cols = B.cols ∧
      ∀ i j, i < B.rows → j < B.cols → G.e i j = B.e i j) ∧
    (∀ Kr Kc, (Kr, Kc) ≠ (Lr, Lc) → A'.get_block Kr Kc = A.get_block Kr Kc) ∧
    A'.full_space = A.full_space ∧ A'.mat.rows = A.mat.rows ∧ A'.mat.cols = A.mat.cols := by
  unfold LBlockArray.set_block at h
  obtain ⟨r, hr, h⟩ := py_bind_eq_ok h
  obtain ⟨c, hc, h⟩ := py_bind_eq_ok h
  obtain ⟨M, hM, h⟩ := py_bind_eq_ok h
  injection h with h
  subst h
  obtain ⟨k, ek, _⟩ := made_block hA hr
  obtain ⟨m, em, _⟩ := made_block hA hc
  set d := ldim A.full_space.nu_min A.full_space.nu_max A.full_space.v_min A.full_space.v_max with hd
  subst ek em
  simp only [setBlock_nat] at hM
  split_ifs at hM with hs
  injection hM with hM
  subst hM
  refine ⟨?_, ?_, rfl, rfl, rfl⟩
  · unfold LBlockArray.get_block
    simp only [hr, hc, py_bind_ok, slice_nat]
    refine ⟨_, rfl, hs.1.symm, hs.2.symm, fun i j hi hj => ?_⟩
    simp only [Arr.of]
    rw [if_pos ⟨by omega, by omega⟩, if_pos ⟨⟨by omega, by omega⟩, by omega, by omega⟩]
    congr 1 <;> omega
  · intro Kr Kc hne
    unfold LBlockArray.get_block
    simp only []
    cases hr' : A.full_space.get_block_for_L Kr with
    | error e => rfl
    | ok r' =>
      cases hc' : A.full_space.get_block_for_L Kc with
      | error e => rfl
      | ok c' =>
        have hdis : (Kr ≠ Lr) ∨ (Kc ≠ Lc) := by
          by_contra hh
          push Not at hh
          exact hne (by rw [hh.1, hh.2])
        have h1 := fun hh => made_disjoint hA (L := Kr) (K := Lr) hh hr' hr
        have h2 := fun hh => made_disjoint hA (L := Kc) (K := Lc) hh hc' hc
        obtain ⟨k', e1, _⟩ := made_block hA hr'
        obtain ⟨m', e2, _⟩ := made_block hA hc'
        rw [← hd] at e1 e2
        subst e1 e2
        simp only [py_bind_ok, slice_nat]
        congr 1
        unfold Arr.of
        congr 1
        funext i j
        have h1' : Kr ≠ Lr → k' + d Kr ≤ k ∨ k + d Lr ≤ k' := fun hh => by
          have := h1 hh
          simp only [] at this
          exact_mod_cast this
        have h2' : Kc ≠ Lc → m' + d Kc ≤ m ∨ m + d Lc ≤ m' := fun hh => by
          have := h2 hh
          simp only [] at this
          exact_mod_cast this
        by_cases hij : i < min (k' + d Kr) A.mat.rows - min k' A.mat.rows ∧
            j < min (m' + d Kc) A.mat.cols - min m' A.mat.cols
        · rw [if_pos hij, if_pos hij]
          refine if_neg ?_
          rintro ⟨h3, h4⟩
          rcases hdis with hh | hh
          · have := h1' hh; omega
          · have := h2' hh; omega
        · rw [if_neg hij, if_neg hij]

/-- C34: writing to or reading from a block that does not exist raises. -/
theorem C34_missing {A : LBlockArray} (hA : Made A.full_space) {Lr Lc : Int}
    (h : Lr ∉ A.full_space.Lvals ∨ Lc ∉ A.full_space.Lvals) (B : Arr) :
    A.set_block Lr Lc B = .error .valueError ∧ A.get_block Lr Lc = .error .valueError := by
  unfold LBlockArray.set_block LBlockArray.get_block
  rw [← made_key hA] at h
  cases hr : A.full_space.get_block_for_L Lr with
  | error e =>
    have : Lr ∉ A.full_space.Lblocks.map Prod.fst := fun hh => by
      obtain ⟨b, hb⟩ := get_block_exists.2 hh; rw [hr] at hb; cases hb
    rw [get_block_err this] at hr
    injection hr with hr
    subst hr
    exact ⟨rfl, rfl⟩
  | ok r =>
    rcases h with h | h
    · exact absurd (get_block_exists.1 ⟨r, hr⟩) h
    · rw [get_block_err h]
      exact ⟨rfl, rfl⟩

/-- The hypotheses of C34 are met: a 2 x 2 matrix with L = 0 and 2, and a 1 x 1 block. -/
example : ∃ S A', LBlockFullSpace.new 0 0 0 1 [0, 2] = .ok S ∧ Made S ∧
    LBlockArray.set_block ⟨Arr.eye 2, S⟩ 0 2 (Arr.eye 1) = .ok A' := by
  have hS := new_iff (nu_min := 0) (nu_max := 0) (v_min := 0) (v_max := 1) (Ls := [0, 2])
    (S := ⟨0, 0, 0, 1, [0, 2], blocksFrom (ldim 0 0 0 1) 0 [0, 2]⟩)
    |>.2 ⟨by unfold LegalNuV; simp, by simp, rfl⟩
  have hm := made_of_new hS
  have hb : blocksFrom (ldim 0 0 0 1) 0 [0, 2] = [(0, 0, 1), (2, 1, 2)] := by decide +kernel
  obtain ⟨A', h⟩ := (C34_accepts (A := ⟨Arr.eye 2, ⟨0, 0, 0, 1, [0, 2], blocksFrom (ldim 0 0 0 1) 0 [0, 2]⟩⟩)
    hm 0 2 (Arr.eye 1)).2 (by
      refine ⟨(Arr.eye 2).slice 0 1 1 2, ?_, ?_, ?_⟩
      · unfold LBlockArray.get_block LBlockFullSpace.get_block_for_L
        simp only [hb]
        rfl
      · simp [Arr.slice, Arr.eye, Arr.of, sliceBound]
      · simp [Arr.slice, Arr.eye, Arr.of, sliceBound])
  exact ⟨_, A', hS, hm, h⟩

end Acm.Props
