import Verif.Lemmas.FullDig
import Verif.Spec.FullSpace

/-!
# Lemmas on block matrices
-/

namespace Acm

open Acm.Spec

/-- The blocks of consecutive subspaces of dimensions `d L`. -/
def blocksFrom (d : Int → ℕ) (acc : ℕ) : List Int → List (Int × Int × Int)
  | [] => []
  | L :: Ls => (L, (acc : Int), ((acc + d L : ℕ) : Int)) :: blocksFrom d (acc + d L) Ls

theorem mem_blocksFrom {d : Int → ℕ} {L s e : Int} : ∀ {Ls : List Int} {acc : ℕ},
    (L, s, e) ∈ blocksFrom d acc Ls → ∃ k : ℕ, s = k ∧ e = ((k + d L : ℕ) : Int) ∧ acc ≤ k ∧
      k + d L ≤ acc + (Ls.map d).sum
  | [], _, h => by cases h
  | K :: Ls, acc, h => by
    rw [List.map_cons, List.sum_cons]
    rcases List.mem_cons.1 h with h | h
    · injection h with h1 h2
      injection h2 with h2 h3
      subst h1
      exact ⟨acc, h2, h3, le_refl _, by omega⟩
    · obtain ⟨k, h1, h2, h3, h4⟩ := mem_blocksFrom h
      exact ⟨k, h1, h2, by omega, by omega⟩

theorem blocksFrom_key {d : Int → ℕ} : ∀ (Ls : List Int) (acc : ℕ),
    (blocksFrom d acc Ls).map Prod.fst = Ls
  | [], _ => rfl
  | L :: Ls, acc => by rw [blocksFrom, List.map_cons, blocksFrom_key Ls]

theorem blocksFrom_pairwise {d : Int → ℕ} : ∀ (Ls : List Int) (acc : ℕ),
    (blocksFrom d acc Ls).Pairwise fun x y => x.2.2 ≤ y.2.1
  | [], _ => .nil
  | L :: Ls, acc => by
    refine List.pairwise_cons.2 ⟨fun y hy => ?_, blocksFrom_pairwise Ls _⟩
    obtain ⟨k, h1, _, h3, _⟩ := mem_blocksFrom (L := y.1) (s := y.2.1) (e := y.2.2) hy
    rw [h1]
    show ((acc + d L : ℕ) : Int) ≤ _
    exact_mod_cast h3

theorem zip_blocks (d : Int → ℕ) : ∀ (Ls : List Int) (acc : ℕ),
    Ls.zip (((acc : Int) :: (cumsumFrom acc (Ls.map fun L => (d L : Int))).dropLast).zip
      (cumsumFrom acc (Ls.map fun L => (d L : Int)))) = blocksFrom d acc Ls
  | [], _ => rfl
  | [L], acc => by simp [cumsumFrom, blocksFrom]
  | L :: K :: Ls, acc => by
    have ih := zip_blocks d (K :: Ls) (acc + d L)
    rw [List.map_cons, cumsumFrom, blocksFrom]
    have hd : cumsumFrom ((acc : Int) + (d L : Int)) ((K :: Ls).map fun L => (d L : Int)) ≠ [] := by
      rw [List.map_cons, cumsumFrom]; simp
    rw [List.dropLast_cons_of_ne_nil hd, List.zip_cons_cons, List.zip_cons_cons]
    push_cast at ih ⊢
    rw [ih]

/-- The dimension of the subspace with angular momentum `L`. -/
def ldim (nu_min nu_max v_min v_max L : Int) : ℕ := (labelsV v_min v_max L L).length * (nu_max - nu_min + 1).toNat

theorem ldim_eq (a : XArgs) (L : Int) : ldim a.nu_min a.nu_max a.v_min a.v_max L = (a.at L).dim := rfl

/-- Legal ranges of the radial and the seniority labels. -/
def LegalNuV (nu_min nu_max v_min v_max : Int) : Prop :=
  (0 ≤ nu_min ∧ nu_min ≤ nu_max) ∧ (0 ≤ v_min ∧ v_min ≤ v_max)

theorem dimXspace_ldim {nu_min nu_max v_min v_max L : Int} (h : LegalNuV nu_min nu_max v_min v_max)
    (hL : 0 ≤ L) : dimXspace nu_min nu_max v_min v_max L none = .ok (ldim nu_min nu_max v_min v_max L : Int) := by
  have := dimXspace_at (a := ⟨1, 1, nu_min, nu_max, v_min, v_max, L, L⟩)
    ⟨h.1, h.2, hL, le_refl _⟩ hL
  exact this

theorem dimXspace_neg {nu_min nu_max v_min v_max L : Int} (h : LegalNuV nu_min nu_max v_min v_max)
    (hL : ¬ 0 ≤ L) : dimXspace nu_min nu_max v_min v_max L none = .error .valueError := by
  unfold dimXspace
  rw [require_nonnegint_range_ok h.1.1 h.1.2, py_bind_ok]
  simp only [Option.getD_none]
  rw [require_nonnegint_range_err (fun hh => hL hh.1)]
  rfl

theorem dimL_mapM {nu_min nu_max v_min v_max : Int} (h : LegalNuV nu_min nu_max v_min v_max) (all : List Int) :
    ∀ (Ls : List Int), (∀ L ∈ Ls, 0 ≤ L ∧ L ∈ all) →
      Ls.mapM (LBlock_dimL nu_min nu_max v_min v_max all)
        = .ok (Ls.map fun L => (ldim nu_min nu_max v_min v_max L : Int)) := by
  intro Ls
  induction Ls with
  | nil => intro _; rfl
  | cons L Ls ih =>
    intro hLs
    have ih := ih fun M hM => hLs M (List.mem_cons_of_mem _ hM)
    obtain ⟨h1, h2⟩ := hLs L List.mem_cons_self
    rw [List.mapM_cons, ih, LBlock_dimL, if_pos h2, dimXspace_ldim h h1]
    rfl

theorem dimL_mapM_nonneg {nu_min nu_max v_min v_max : Int} (h : LegalNuV nu_min nu_max v_min v_max)
    (all : List Int) : ∀ (Ls : List Int) {ds : List Int}, (∀ L ∈ Ls, L ∈ all) →
      Ls.mapM (LBlock_dimL nu_min nu_max v_min v_max all) = .ok ds → ∀ L ∈ Ls, 0 ≤ L := by
  intro Ls
  induction Ls with
  | nil => intro _ _ _ L hL; cases hL
  | cons K Ls ih =>
    intro ds hall he L hL
    rw [List.mapM_cons] at he
    obtain ⟨x, hx, he⟩ := py_bind_eq_ok he
    obtain ⟨xs, hxs, _⟩ := py_bind_eq_ok he
    rcases List.mem_cons.1 hL with rfl | hL
    · by_contra hneg
      rw [LBlock_dimL, if_pos (hall _ List.mem_cons_self), dimXspace_neg h hneg] at hx
      cases hx
    · exact ih (fun M hM => hall M (List.mem_cons_of_mem _ hM)) hxs L hL

/-- When a block structure can be made, and what it is. -/
theorem new_iff {nu_min nu_max v_min v_max : Int} {Ls : List Int} {S : LBlockFullSpace} :
    LBlockFullSpace.new nu_min nu_max v_min v_max Ls = .ok S ↔
      LegalNuV nu_min nu_max v_min v_max ∧ (∀ L ∈ Ls, 0 ≤ L) ∧
      S = ⟨nu_min, nu_max, v_min, v_max, Ls, blocksFrom (ldim nu_min nu_max v_min v_max) 0 Ls⟩ := by
  unfold LBlockFullSpace.new
  by_cases h1 : 0 ≤ nu_min ∧ nu_min ≤ nu_max
  · rw [require_nonnegint_range_ok h1.1 h1.2, py_bind_ok]
    by_cases h2 : 0 ≤ v_min ∧ v_min ≤ v_max
    · rw [require_nonnegint_range_ok h2.1 h2.2, py_bind_ok]
      have hl : LegalNuV nu_min nu_max v_min v_max := ⟨h1, h2⟩
      unfold LBlock_blocks
      constructor
      · intro he
        obtain ⟨bs, hb, he⟩ := py_bind_eq_ok he
        obtain ⟨ds, hd, hb⟩ := py_bind_eq_ok hb
        have h3 := dimL_mapM_nonneg hl Ls Ls (fun _ h => h) hd
        rw [dimL_mapM hl Ls Ls fun L hL => ⟨h3 L hL, hL⟩] at hd
        injection hd with hd
        subst hd
        injection he with he
        injection hb with hb
        refine ⟨hl, h3, ?_⟩
        rw [← he, ← hb, ← zip_blocks]
        rfl
      · rintro ⟨_, h3, rfl⟩
        rw [dimL_mapM hl Ls Ls fun L hL => ⟨h3 L hL, hL⟩]
        rw [← zip_blocks]
        rfl
    · rw [require_nonnegint_range_err h2]
      constructor
      · intro h; cases h
      · rintro ⟨h, _⟩; exact absurd h.2 h2
  · rw [require_nonnegint_range_err h1]
    constructor
    · intro h; cases h
    · rintro ⟨h, _⟩; exact absurd h.1 h1

theorem get_block_mem {S : LBlockFullSpace} {L : Int} {b : Int × Int} (h : S.get_block_for_L L = .ok b) :
    (L, b) ∈ S.Lblocks := by
  unfold LBlockFullSpace.get_block_for_L at h
  split at h
  · rename_i b' hb
    injection h with h
    subst h
    obtain ⟨l1, l2, he, _⟩ := List.lookup_eq_some_iff.1 hb
    rw [← List.mem_reverse, he]
    simp
  · cases h

theorem get_block_exists {S : LBlockFullSpace} {L : Int} :
    (∃ b, S.get_block_for_L L = .ok b) ↔ L ∈ S.Lblocks.map Prod.fst := by
  constructor
  · rintro ⟨b, h⟩
    exact List.mem_map.2 ⟨_, get_block_mem h, rfl⟩
  · intro h
    unfold LBlockFullSpace.get_block_for_L
    cases hb : S.Lblocks.reverse.lookup L with
    | some b => exact ⟨b, rfl⟩
    | none =>
      obtain ⟨x, hx, rfl⟩ := List.mem_map.1 h
      have := List.lookup_eq_none_iff.1 hb x (List.mem_reverse.2 hx)
      simp at this

theorem get_block_err {S : LBlockFullSpace} {L : Int} (h : L ∉ S.Lblocks.map Prod.fst) :
    S.get_block_for_L L = .error .valueError := by
  have h' := mt get_block_exists.1 h
  unfold LBlockFullSpace.get_block_for_L at h' ⊢
  cases hb : S.Lblocks.reverse.lookup L with
  | some b => rw [hb] at h'; exact absurd ⟨b, rfl⟩ h'
  | none => rfl

theorem mem_unique {α β : Type} {l : List (α × β)} (h : (l.map Prod.fst).Nodup) {k : α} {x y : β}
    (hx : (k, x) ∈ l) (hy : (k, y) ∈ l) : x = y := by
  induction l with
  | nil => cases hx
  | cons z l ih =>
    rw [List.map_cons, List.nodup_cons] at h
    rcases List.mem_cons.1 hx with h1 | h1
    · rcases List.mem_cons.1 hy with h2 | h2
      · rw [← h1] at h2; injection h2 with _ h2; exact h2.symm
      · exact absurd (List.mem_map.2 ⟨_, h2, by rw [← h1]⟩) h.1
    · rcases List.mem_cons.1 hy with h2 | h2
      · exact absurd (List.mem_map.2 ⟨_, h1, by rw [← h2]⟩) h.1
      · exact ih h.2 h1 h2

theorem get_block_nodup {S : LBlockFullSpace} (hn : (S.Lblocks.map Prod.fst).Nodup) {L : Int} {b : Int × Int}
    (h : (L, b) ∈ S.Lblocks) : S.get_block_for_L L = .ok b := by
  obtain ⟨b', hb⟩ := get_block_exists.2 (List.mem_map.2 ⟨_, h, rfl⟩)
  rw [hb, mem_unique hn (get_block_mem hb) h]

theorem made_blocks {S : LBlockFullSpace} (h : Made S) :
    S.Lblocks = blocksFrom (ldim S.nu_min S.nu_max S.v_min S.v_max) 0 S.Lvals := by
  have := (new_iff.1 h).2.2
  rw [this]

theorem made_of_new {nu_min nu_max v_min v_max : Int} {Ls : List Int} {S : LBlockFullSpace}
    (h : LBlockFullSpace.new nu_min nu_max v_min v_max Ls = .ok S) : Made S := by
  obtain ⟨h1, h2, h3⟩ := new_iff.1 h
  subst h3
  exact new_iff.2 ⟨h1, h2, rfl⟩

/-- The block of an angular momentum. -/
theorem made_block {S : LBlockFullSpace} (h : Made S) {L : Int} {b : Int × Int}
    (hb : S.get_block_for_L L = .ok b) : ∃ k : ℕ, b = ((k : Int), ((k + ldim S.nu_min S.nu_max S.v_min S.v_max L : ℕ) : Int)) ∧
      k + ldim S.nu_min S.nu_max S.v_min S.v_max L ≤ (S.Lvals.map (ldim S.nu_min S.nu_max S.v_min S.v_max)).sum := by
  have := get_block_mem hb
  rw [made_blocks h] at this
  obtain ⟨k, h1, h2, _, h4⟩ := mem_blocksFrom (s := b.1) (e := b.2) this
  exact ⟨k, Prod.ext h1 h2, by omega⟩

theorem pairwise_or {α : Type} {R : α → α → Prop} {l : List α} (hp : l.Pairwise R) {x y : α} (hx : x ∈ l)
    (hy : y ∈ l) (hne : x ≠ y) : R x y ∨ R y x := by
  induction hp with
  | nil => cases hx
  | cons h1 _ ih =>
    rcases List.mem_cons.1 hx with rfl | hx'
    · rcases List.mem_cons.1 hy with rfl | hy'
      · exact absurd rfl hne
      · exact .inl (h1 _ hy')
    · rcases List.mem_cons.1 hy with rfl | hy'
      · exact .inr (h1 _ hx')
      · exact ih hx' hy'

/-- Blocks of different angular momenta do not overlap. -/
theorem made_disjoint {S : LBlockFullSpace} (h : Made S) {L K : Int} (hLK : L ≠ K) {b c : Int × Int}
    (hb : S.get_block_for_L L = .ok b) (hc : S.get_block_for_L K = .ok c) : b.2 ≤ c.1 ∨ c.2 ≤ b.1 := by
  have h1 := get_block_mem hb
  have h2 := get_block_mem hc
  have hp : S.Lblocks.Pairwise fun x y => x.2.2 ≤ y.2.1 := by
    rw [made_blocks h]; exact blocksFrom_pairwise _ _
  exact pairwise_or hp h1 h2 (fun hh => hLK (congrArg Prod.fst hh))

theorem made_key {S : LBlockFullSpace} (h : Made S) : S.Lblocks.map Prod.fst = S.Lvals := by
  rw [made_blocks h, blocksFrom_key]

/-! ## positions in a concatenation -/

theorem flat_position {β : Type} (f : Int → List β) (key : β → Int) (d : Int → ℕ) (hd : ∀ L, (f L).length = d L)
    (hk : ∀ L, ∀ x ∈ f L, key x = L) : ∀ (Ls : List Int), Ls.Nodup → ∀ (acc p : ℕ) (x : β),
      (Ls.flatMap f)[p]? = some x → ∀ L s e, (L, s, e) ∈ blocksFrom d acc Ls →
        (key x = L ↔ s ≤ ((acc + p : ℕ) : Int) ∧ ((acc + p : ℕ) : Int) < e) := by
  intro Ls
  induction Ls with
  | nil => intro _ acc p x hx; simp at hx
  | cons K Ls ih =>
    intro hn acc p x hx L s e hL
    rw [List.nodup_cons] at hn
    rw [List.flatMap_cons] at hx
    by_cases hp : p < (f K).length
    · rw [List.getElem?_append_left hp] at hx
      have hkx : key x = K := hk K x (List.mem_of_getElem? hx)
      rw [hd] at hp
      rcases List.mem_cons.1 hL with h | h
      · injection h with h1 h2
        injection h2 with h2 h3
        subst h1 h2 h3
        simp only [hkx, true_iff]
        constructor <;> omega
      · obtain ⟨k, h1, h2, h3, _⟩ := mem_blocksFrom h
        have hmem : L ∈ Ls := by
          rw [← blocksFrom_key (d := d) Ls (acc + d K)]; exact List.mem_map.2 ⟨_, h, rfl⟩
        have hne : K ≠ L := fun hh => hn.1 (hh ▸ hmem)
        rw [hkx]
        simp only [hne, false_iff]
        intro hh
        omega
    · rw [List.getElem?_append_right (by omega)] at hx
      rw [hd] at hp hx
      have hkx : key x ∈ Ls := by
        obtain ⟨M, hM, hxM⟩ := List.mem_flatMap.1 (List.mem_of_getElem? hx)
        rw [hk M x hxM]; exact hM
      rcases List.mem_cons.1 hL with h | h
      · injection h with h1 h2
        injection h2 with h2 h3
        subst h1 h2 h3
        have hne : key x ≠ L := fun hh => hn.1 (hh ▸ hkx)
        simp only [hne, false_iff]
        intro hh
        omega
      · have := ih hn.2 (acc + d K) (p - d K) x hx L s e h
        rw [show acc + d K + (p - d K) = acc + p by omega] at this
        exact this

end Acm
