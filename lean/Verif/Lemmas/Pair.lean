import Verif.Lemmas.Twin
import Verif.Spec.Affine

/-!
# Two displays that show the same values
-/

namespace Acm

open Acm.Spec

/-- Both states have the multipolarity `AM`, and the same has been printed but for headings. -/
def Par (AM : Int) (s t : FState) : Prop :=
  s.glb.rat_TRopAM = AM ∧ t.glb.rat_TRopAM = AM ∧ valueLines s.out = valueLines t.out

/-- Two programs that return or raise the same and print the same but for headings. -/
def Pair (AM : Int) {α : Type} (m n : FM α) : Prop :=
  ∀ s t, Par AM s t → (m s).1 = (n t).1 ∧ Par AM (m s).2 (n t).2

section
variable {AM : Int} {α β : Type}

theorem pair_pure (x : α) : Pair AM (pure x : FM α) (pure x) := fun _ _ h => ⟨rfl, h⟩

theorem pair_lift (x : Py α) : Pair AM (StPy.lift x : FM α) (StPy.lift x) := fun _ _ h => ⟨rfl, h⟩

theorem pair_print (l : Shown) : Pair AM (FM.print l) (FM.print l) := fun s t h => by
  refine ⟨rfl, h.1, h.2.1, ?_⟩
  show valueLines (s.out ++ [l]) = valueLines (t.out ++ [l])
  unfold valueLines
  rw [List.filter_append, List.filter_append]
  exact congrArg (· ++ _) h.2.2

theorem pair_head (x y : ℝ) : Pair AM (FM.print (.melHead x)) (FM.print (.melHead y)) := fun s t h => by
  refine ⟨rfl, h.1, h.2.1, ?_⟩
  show valueLines (s.out ++ [.melHead x]) = valueLines (t.out ++ [.melHead y])
  unfold valueLines
  rw [List.filter_append, List.filter_append]
  exact congrArg (· ++ _) h.2.2

theorem pair_bind {m n : FM α} {f g : α → FM β} (h1 : Pair AM m n) (h2 : ∀ a, Pair AM (f a) (g a)) :
    Pair AM (m >>= f) (n >>= g) := by
  intro s t h
  obtain ⟨e, h'⟩ := h1 s t h
  rcases hm : m s with ⟨x, s'⟩
  rcases hn : n t with ⟨y, t'⟩
  rw [hm, hn] at e h'
  replace e : x = y := e
  subst e
  cases x with
  | error e => rw [st_bind_error hm, st_bind_error hn]; exact ⟨rfl, h'⟩
  | ok a => rw [st_bind_ok hm, st_bind_ok hn]; exact h2 a s' t' h'

theorem pair_glb {f g : Glb → FM β} (h : ∀ x y : Glb, x.rat_TRopAM = AM → y.rat_TRopAM = AM → Pair AM (f x) (g y)) :
    Pair AM (FM.glb >>= f) (FM.glb >>= g) := by
  intro s t k
  rw [st_bind_ok (x := FM.glb) (s := s) (s' := s) rfl, st_bind_ok (x := FM.glb) (s := t) (s' := t) rfl]
  exact h _ _ k.1 k.2.1 s t k

theorem pair_ite {c d : Prop} [Decidable c] [Decidable d] (e : c ↔ d) {m n m' n' : FM α} (h1 : c → Pair AM m m')
    (h2 : ¬ c → Pair AM n n') : Pair AM (if c then m else n) (if d then m' else n') := by
  by_cases hc : c
  · rw [if_pos hc, if_pos (e.1 hc)]; exact h1 hc
  · rw [if_neg hc, if_neg fun hd => hc (e.2 hd)]; exact h2 hc

/-- Two blocks whose elements are displayed as the same values. -/
def BlockSame (AM : Int) (f f' : MelFun) (sc sc' : ℝ) (L1 L2 : Int) (B B' : Arr) : Prop :=
  B'.rows = B.rows ∧ B'.cols = B.cols ∧ ∀ i j, i < B.rows → j < B.cols →
    (f AM L1 L2 (B.e i j)).map (· / sc) = (f' AM L1 L2 (B'.e i j)).map (· / sc')

/-- Two arrays whose elements are displayed as the same values. -/
def MelSame (AM : Int) (f f' : MelFun) (sc sc' : ℝ) (A A' : LBlockArray) : Prop :=
  A'.full_space = A.full_space ∧ A'.mat.rows = A.mat.rows ∧ ∀ L1 ∈ A.full_space.Lvals, ∀ L2 ∈ A.full_space.Lvals,
    ∃ B B', A.get_block L2 L1 = .ok B ∧ A'.get_block L2 L1 = .ok B' ∧ BlockSame AM f f' sc sc' L1 L2 B B'

variable {f f' : MelFun} {sc sc' : ℝ}

theorem get_same {L1 L2 : Int} {B B' : Arr} (h : BlockSame AM f f' sc sc' L1 L2 B B') (i j : Int) :
    (∃ e, B.get i j = .error e ∧ B'.get i j = .error e) ∨
    ∃ x x', B.get i j = .ok x ∧ B'.get i j = .ok x' ∧ (f AM L1 L2 x).map (· / sc) = (f' AM L1 L2 x').map (· / sc') := by
  unfold Arr.get
  simp only [h.1, h.2.1]
  generalize (if i < 0 then i + (B.rows : Int) else i) = i'
  generalize (if j < 0 then j + (B.cols : Int) else j) = j'
  split_ifs with hc
  · exact .inr ⟨_, _, rfl, rfl, h.2.2 _ _ (by omega) (by omega)⟩
  · exact .inl ⟨_, rfl, rfl⟩

theorem pair_melValue {L1 L2 : Int} {B B' : Arr} (h : BlockSame AM f f' sc sc' L1 L2 B B') (n1 n2 : Int) :
    Pair AM (melValue f sc B L1 L2 n1 n2) (melValue f' sc' B' L1 L2 n1 n2) := by
  unfold melValue
  refine pair_glb fun x y hx hy => ?_
  rw [hx, hy]
  rcases get_same h (n2 - 1) (n1 - 1) with ⟨e, h1, h2⟩ | ⟨z, z', h1, h2, h3⟩
  · rw [h1, h2]
    intro s t k
    rw [st_lift_error, st_lift_error]
    exact ⟨rfl, k⟩
  · rw [h1, h2]
    intro s t k
    rw [st_lift_ok, st_lift_ok]
    cases e1 : f AM L1 L2 z with
    | error e =>
      cases e2 : f' AM L1 L2 z' with
      | error e' =>
        rw [e1, e2] at h3
        injection h3 with h3
        rw [st_lift_error, st_lift_error, h3]
        exact ⟨rfl, k⟩
      | ok w => rw [e1, e2] at h3; cases h3
    | ok v =>
      cases e2 : f' AM L1 L2 z' with
      | error e' => rw [e1, e2] at h3; cases h3
      | ok w =>
        rw [e1, e2] at h3
        injection h3 with h3
        replace h3 : v / sc = w / sc' := h3
        rw [st_lift_ok, st_lift_ok, h3]
        exact ⟨rfl, k⟩

theorem pair_rowValues {L1 L2 : Int} {B B' : Arr} (h : BlockSame AM f f' sc sc' L1 L2 B B') (n2 : Int) :
    ∀ ns, Pair AM (rowValues f sc B L1 L2 n2 ns) (rowValues f' sc' B' L1 L2 n2 ns)
  | [] => pair_pure _
  | _ :: ns => pair_bind (pair_melValue h _ _) fun _ => pair_bind (pair_rowValues h n2 ns) fun _ => pair_pure _

theorem pair_rowBlock {L1 L2 : Int} {B B' : Arr} (h : BlockSame AM f f' sc sc' L1 L2 B B') (n2 t : Int) :
    Pair AM (showRowBlock f sc B L1 L2 n2 t) (showRowBlock f' sc' B' L1 L2 n2 t) := by
  unfold showRowBlock
  rw [h.1, h.2.1]
  exact pair_ite Iff.rfl (fun _ => pair_pure _) fun _ => pair_bind (pair_rowValues h n2 _) fun _ =>
    pair_bind (pair_print _) fun _ => pair_pure _

variable {A A' : LBlockArray} (h : MelSame AM f f' sc sc' A A')
include h

theorem pair_Row (L1 L2 n2 t : Int) : Pair AM (Show_Mels_Row A L1 L2 n2 t f sc) (Show_Mels_Row A' L1 L2 n2 t f' sc') := by
  unfold Show_Mels_Row
  rw [h.1]
  refine pair_ite Iff.rfl (fun _ => pair_pure _) fun hc => ?_
  obtain ⟨B, B', b1, b2, b3⟩ := h.2.2 L1 (by tauto) L2 (by tauto)
  intro s t k
  rw [b1, b2, st_lift_ok, st_lift_ok]
  exact pair_rowBlock b3 n2 _ s t k

theorem pair_RowsLoop (L1 L2 t : Int) : ∀ ns, Pair AM (showRowsLoop A L1 L2 t f sc ns) (showRowsLoop A' L1 L2 t f' sc' ns)
  | [] => pair_pure _
  | _ :: ns => pair_bind (pair_Row h _ _ _ _) fun _ => pair_ite Iff.rfl (fun _ => pair_pure _) fun _ => pair_RowsLoop L1 L2 t ns

theorem pair_RowsL1 (L2 t : Int) : ∀ ns, Pair AM (showRowsL1 A L2 t f sc ns) (showRowsL1 A' L2 t f' sc' ns)
  | [] => pair_pure _
  | _ :: ns => pair_bind (pair_RowsLoop h _ _ _ _) fun _ => pair_RowsL1 L2 t ns

theorem pair_Rows (L2 t : Int) : Pair AM (Show_Mels_Rows A L2 t f sc) (Show_Mels_Rows A' L2 t f' sc') := by
  unfold Show_Mels_Rows
  refine pair_glb fun x y hx hy => ?_
  rw [hx, hy]
  exact pair_RowsL1 h _ _ _

theorem pair_AllRows (t : Int) : ∀ ns, Pair AM (showAllRows A t f sc ns) (showAllRows A' t f' sc' ns)
  | [] => pair_pure _
  | _ :: ns => pair_bind (pair_Rows h _ _) fun _ => pair_AllRows t ns

theorem pair_One (L1 L2 n1 n2 : Int) : Pair AM (showOne A L1 L2 n1 n2 f sc) (showOne A' L1 L2 n1 n2 f' sc') := by
  unfold showOne
  rw [h.1]
  refine pair_ite Iff.rfl (fun hc => ?_) fun _ => pair_pure _
  obtain ⟨B, B', b1, b2, b3⟩ := h.2.2 L1 hc.1 L2 hc.2
  intro s t k
  rw [b1, b2, st_lift_ok, st_lift_ok, b3.1, b3.2.1]
  exact pair_ite Iff.rfl (fun _ => pair_bind (pair_melValue b3 _ _) fun _ => pair_print _) (fun _ => pair_pure _) s t k

theorem pair_Series (n1 n2 l : Int) : ∀ k L1 L2, Pair AM (showSeries A n1 n2 l f sc k L1 L2) (showSeries A' n1 n2 l f' sc' k L1 L2)
  | 0, _, _ => pair_pure _
  | k + 1, _, _ => pair_bind (pair_One h _ _ _ _) fun _ => pair_Series n1 n2 l k _ _

theorem pair_Designator (t : Int) : ∀ ent, Pair AM (showDesignator A t f sc ent) (showDesignator A' t f' sc' ent)
  | [] => by
    unfold showDesignator
    rw [h.1]
    exact pair_AllRows h _ _
  | [_] => pair_ite Iff.rfl (fun _ => pair_pure _) fun _ => pair_Rows h _ _
  | [_, _] => pair_ite Iff.rfl (fun _ => pair_pure _) fun _ => pair_RowsLoop h _ _ _ _
  | [_, _, _] => pair_ite Iff.rfl (fun _ => pair_pure _) fun _ => pair_bind (pair_Row h _ _ _ _) fun _ => pair_pure _
  | [_, _, _, _] => pair_ite Iff.rfl (fun _ => pair_pure _) fun _ => pair_One h _ _ _ _
  | [_, _, _, _, _] => by
    unfold showDesignator showFive
    rw [h.1]
    exact pair_ite Iff.rfl (fun _ => pair_pure _) fun _ => pair_ite Iff.rfl (fun _ => pair_pure _) fun _ =>
      pair_bind (pair_lift _) fun _ => pair_Series h _ _ _ _ _ _
  | _ :: _ :: _ :: _ :: _ :: _ :: _ => pair_print _

theorem pair_Designators (t : Int) : ∀ l, Pair AM (showDesignators A t f sc l) (showDesignators A' t f' sc' l)
  | [] => pair_pure _
  | _ :: l => pair_bind (pair_Designator h _ _) fun _ => pair_Designators t l

theorem pair_Show_Mels (l : List (List Int)) (t : Int) : Pair AM (Show_Mels A l t f sc) (Show_Mels A' l t f' sc') := by
  unfold Show_Mels
  rw [h.2.1]
  exact pair_ite Iff.rfl (fun _ => pair_pure _) fun _ => pair_ite Iff.rfl (fun _ => pair_lift _) fun _ =>
    pair_bind (pair_head _ _) fun _ => pair_Designators h _ _

end

end Acm
