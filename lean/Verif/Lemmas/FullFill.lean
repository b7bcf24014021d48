import Verif.Model.FullOps
import Verif.Spec.Radial
import Verif.Lemmas.SO5Prod

/-!
# Lemmas on filling a matrix block by block
-/

namespace Acm

open Acm.Spec

/-- Block `(i, j)` of size `r` of `M` replaced by `B`. -/
noncomputable def blkWrite (r : ℕ) (M : Arr) (i j : ℕ) (B : Arr) : Arr :=
  ⟨M.rows, M.cols, fun p q => if p / r = i ∧ q / r = j then B.e (p % r) (q % r) else M.e p q⟩

theorem div_eq_block {r p i : ℕ} (hr : 0 < r) : p / r = i ↔ i * r ≤ p ∧ p < i * r + r := by
  rw [Nat.div_eq_iff hr]
  constructor
  · rintro ⟨h1, h2⟩; exact ⟨by omega, by omega⟩
  · rintro ⟨h1, h2⟩; exact ⟨by omega, by omega⟩

theorem setBlock_block {r n : ℕ} (hr : 0 < r) {M B : Arr} (h1 : M.rows = n * r) (h2 : M.cols = n * r)
    {i j : ℕ} (hi : i < n) (hj : j < n) :
    M.setBlock ((i : Int) * (r : Int)) ((i : Int) * (r : Int) + (r : Int)) ((j : Int) * (r : Int))
      ((j : Int) * (r : Int) + (r : Int)) B =
      if B.rows = r ∧ B.cols = r then .ok (blkWrite r M i j B) else .error .valueError := by
  have bound : ∀ k < n, k * r + r ≤ n * r := fun k hk => by
    calc k * r + r = (k + 1) * r := by ring
      _ ≤ n * r := Nat.mul_le_mul_right r hk
  have s0 : ∀ k < n, sliceBound (n * r) ((k : Int) * (r : Int)) = k * r := fun k hk => by
    have := bound k hk
    rw [show ((k : Int) * (r : Int)) = ((k * r : ℕ) : Int) by push_cast; ring]
    unfold sliceBound
    rw [if_neg (by omega)]
    omega
  have s1 : ∀ k < n, sliceBound (n * r) ((k : Int) * (r : Int) + (r : Int)) = k * r + r :=
    fun k hk => by
    have := bound k hk
    rw [show ((k : Int) * (r : Int) + (r : Int)) = ((k * r + r : ℕ) : Int) by push_cast; ring]
    unfold sliceBound
    rw [if_neg (by omega)]
    omega
  unfold Arr.setBlock
  simp only [h1, h2, s0 i hi, s0 j hj, s1 i hi, s1 j hj]
  rw [show i * r + r - i * r = r by omega, show j * r + r - j * r = r by omega]
  by_cases h : B.rows = r ∧ B.cols = r
  · rw [if_pos h, if_pos h]
    simp only [py_pure, blkWrite, Except.ok.injEq, Arr.mk.injEq, h1, h2, true_and]
    funext p q
    by_cases hp : p / r = i ∧ q / r = j
    · rw [if_pos hp, if_pos ⟨(div_eq_block hr).1 hp.1, (div_eq_block hr).1 hp.2⟩, ← hp.1, ← hp.2]
      congr 1
      · have := Nat.div_add_mod' p r; omega
      · have := Nat.div_add_mod' q r; omega
    · rw [if_neg hp, if_neg]
      rintro ⟨a, b⟩
      exact hp ⟨(div_eq_block hr).2 a, (div_eq_block hr).2 b⟩
  · rw [if_neg h, if_neg h]; rfl

/-- What one pass of the inner loop does to the matrix. -/
noncomputable def blkStep (r : ℕ) (post : Arr → Arr) (bs : ℕ → ℕ → Option Arr) (M : Arr) (c : ℕ × ℕ) :
    Arr :=
  match bs c.1 c.2 with
  | none => M
  | some B => post (blkWrite r M c.1 c.2 B)

/-- A block of the right shape. -/
def BlockShape (r : ℕ) (b : Option Arr) : Prop := ∀ B, b = some B → B.rows = r ∧ B.cols = r

/-- `post` keeps the shape. -/
def KeepsShape (post : Arr → Arr) : Prop := ∀ M, (post M).rows = M.rows ∧ (post M).cols = M.cols

theorem blkStep_shape {r : ℕ} {post : Arr → Arr} (hp : KeepsShape post)
    (bs : ℕ → ℕ → Option Arr) (M : Arr) (c : ℕ × ℕ) :
    (blkStep r post bs M c).rows = M.rows ∧ (blkStep r post bs M c).cols = M.cols := by
  unfold blkStep
  cases bs c.1 c.2 with
  | none => exact ⟨rfl, rfl⟩
  | some B => exact hp _

theorem fillWrite_eq {r n : ℕ} (hr : 0 < r) (post : Arr → Arr) {M : Arr}
    (h1 : M.rows = n * r) (h2 : M.cols = n * r) {i j : ℕ} (hi : i < n) (hj : j < n)
    (bs : ℕ → ℕ → Option Arr) (hb : BlockShape r (bs i j)) :
    fillWrite r post M i j (bs i j) = .ok (blkStep r post bs M (i, j)) := by
  unfold fillWrite blkStep
  cases hbs : bs i j with
  | none => simp only; rfl
  | some B =>
    simp only
    rw [setBlock_block hr h1 h2 hi hj, if_pos (hb B hbs)]
    rfl

theorem fillWrite_shape {r n : ℕ} (hr : 0 < r) {post : Arr → Arr} {M M' : Arr}
    (h1 : M.rows = n * r) (h2 : M.cols = n * r) {i j : ℕ} (hi : i < n) (hj : j < n)
    {b : Option Arr} (h : fillWrite r post M i j b = .ok M') : BlockShape r b := by
  intro B hB
  subst hB
  unfold fillWrite at h
  simp only at h
  rw [setBlock_block hr h1 h2 hi hj] at h
  by_contra hc
  rw [if_neg hc] at h
  cases h

/-- The body returns the block `b` for final state `i` and initial state `j`. -/
def BodyGives (lam : LambdaFunction) (labels : List Label) (body : BlockFun) (i j : ℕ)
    (b : Option Arr) : Prop :=
  ∃ init fin l, labels[j]? = some init ∧ labels[i]? = some fin ∧ lam init.1 = .ok l ∧
    body i j init fin l = .ok b

theorem pyGet_some {α : Type} {xs : List α} {i : ℕ} {x : α} (h : xs[i]? = some x) :
    pyGet xs (i : Int) = .ok x := by
  obtain ⟨hi, rfl⟩ := List.getElem?_eq_some_iff.1 h
  exact pyGet_nat xs i hi

theorem pyGet_ok_some {α : Type} {xs : List α} {i : ℕ} {x : α} (h : pyGet xs (i : Int) = .ok x) :
    xs[i]? = some x := by
  by_cases hi : i < xs.length
  · rw [pyGet_nat xs i hi] at h
    injection h with h
    rw [List.getElem?_eq_getElem hi, h]
  · unfold pyGet at h
    simp only [Int.natCast_nonneg, if_neg (by omega : ¬ ((i : Int) < 0)), if_true, Int.toNat_natCast,
      List.getElem?_eq_none (by omega : xs.length ≤ i)] at h
    cases h

theorem fillInner_eq {r n : ℕ} (hr : 0 < r) {post : Arr → Arr} (hp : KeepsShape post)
    {lam : LambdaFunction} {labels : List Label} {body : BlockFun} {j : ℕ} (hj : j < n) {init : Label} {l : Int}
    (hinit : labels[j]? = some init) (hl : lam init.1 = .ok l) (bs : ℕ → ℕ → Option Arr) :
    ∀ (is : List ℕ), (∀ i ∈ is, i < n) → (∀ i ∈ is, BodyGives lam labels body i j (bs i j) ∧
      BlockShape r (bs i j)) → ∀ M : Arr, M.rows = n * r → M.cols = n * r →
      fillInner r labels body post j init l is M
        = .ok ((is.map fun i => (i, j)).foldl (blkStep r post bs) M) := by
  intro is
  induction is with
  | nil => intro _ _ M _ _; rfl
  | cons i is ih =>
    intro hn hb M h1 h2
    obtain ⟨⟨init', fin, l', g1, g2, g3, g4⟩, g5⟩ := hb i (by simp)
    rw [hinit] at g1
    injection g1 with g1
    subst g1
    rw [hl] at g3
    injection g3 with g3
    subst g3
    have hs := blkStep_shape (r := r) hp bs M (i, j)
    rw [fillInner, pyGet_some g2, py_bind_ok, g4, py_bind_ok,
      fillWrite_eq hr post h1 h2 (hn i (by simp)) hj bs g5, py_bind_ok,
      ih (fun k hk => hn k (by simp [hk])) (fun k hk => hb k (by simp [hk])) _ (hs.1.trans h1)
        (hs.2.trans h2)]
    rfl

theorem fillInner_ok {r n : ℕ} (hr : 0 < r) {post : Arr → Arr} (hp : KeepsShape post)
    {lam : LambdaFunction} {labels : List Label} {body : BlockFun} {j : ℕ} (hj : j < n) {init : Label} {l : Int}
    (hinit : labels[j]? = some init) (hl : lam init.1 = .ok l) :
    ∀ (is : List ℕ), (∀ i ∈ is, i < n) → ∀ M M' : Arr, M.rows = n * r → M.cols = n * r →
      fillInner r labels body post j init l is M = .ok M' →
      ∀ i ∈ is, ∃ b, BodyGives lam labels body i j b ∧ BlockShape r b := by
  intro is
  induction is with
  | nil => intro _ M M' _ _ _ i hi; simp at hi
  | cons i is ih =>
    intro hn M M' h1 h2 h k hk
    rw [fillInner] at h
    obtain ⟨fin, g2, h⟩ := py_bind_eq_ok h
    obtain ⟨b, g4, h⟩ := py_bind_eq_ok h
    obtain ⟨M1, g5, h⟩ := py_bind_eq_ok h
    have hb : BlockShape r b := fillWrite_shape hr h1 h2 (hn i (by simp)) hj g5
    rw [List.mem_cons] at hk
    rcases hk with rfl | hk
    · exact ⟨b, ⟨init, fin, l, hinit, pyGet_ok_some g2, hl, g4⟩, hb⟩
    · have e : M1 = blkStep r post (fun _ _ => b) M (i, j) := by
        have := fillWrite_eq hr post h1 h2 (hn i (by simp)) hj (fun _ _ => b) hb
        rw [g5] at this
        injection this
      have hs := blkStep_shape (r := r) hp (fun _ _ => b) M (i, j)
      rw [← e] at hs
      exact ih (fun k hk => hn k (by simp [hk])) M1 M' (hs.1.trans h1) (hs.2.trans h2) h k hk

theorem foldl_blkStep_shape {r : ℕ} {post : Arr → Arr} (hp : KeepsShape post)
    (bs : ℕ → ℕ → Option Arr) (cs : List (ℕ × ℕ)) (M : Arr) :
    (cs.foldl (blkStep r post bs) M).rows = M.rows ∧ (cs.foldl (blkStep r post bs) M).cols = M.cols := by
  induction cs generalizing M with
  | nil => exact ⟨rfl, rfl⟩
  | cons c cs ih =>
    rw [List.foldl_cons]
    have h1 := ih (blkStep r post bs M c)
    have h2 := blkStep_shape (r := r) hp bs M c
    exact ⟨h1.1.trans h2.1, h1.2.trans h2.2⟩

/-- The cells in the order of the loops: initial state outside, final state inside. -/
def cellsOf (n : ℕ) (js : List ℕ) : List (ℕ × ℕ) :=
  js.flatMap fun j => (List.range n).map fun i => (i, j)

theorem fillOuter_eq {r n : ℕ} (hr : 0 < r) {post : Arr → Arr} (hp : KeepsShape post)
    {lam : LambdaFunction} {labels : List Label} {body : BlockFun} (bs : ℕ → ℕ → Option Arr) :
    ∀ (js : List ℕ), (∀ j ∈ js, j < n) → (∀ j ∈ js, ∀ i < n, BodyGives lam labels body i j (bs i j) ∧
      BlockShape r (bs i j)) → ∀ M : Arr, M.rows = n * r → M.cols = n * r →
      fillOuter lam r n labels body post js M
        = .ok ((cellsOf n js).foldl (blkStep r post bs) M) := by
  intro js
  induction js with
  | nil => intro _ _ M _ _; rfl
  | cons j js ih =>
    intro hn hb M h1 h2
    have hj := hn j (by simp)
    obtain ⟨⟨init, fin, l, g1, g2, g3, g4⟩, g5⟩ := hb j (by simp) j hj
    have hs := foldl_blkStep_shape (r := r) hp bs ((List.range n).map fun i => (i, j)) M
    rw [fillOuter, pyGet_some g1, py_bind_ok, g3, py_bind_ok, Int.toNat_natCast,
      fillInner_eq hr hp hj g1 g3 bs _ (fun i hi => List.mem_range.1 hi)
        (fun i hi => hb j (by simp) i (List.mem_range.1 hi)) M h1 h2, py_bind_ok,
      ih (fun k hk => hn k (by simp [hk])) (fun k hk => hb k (by simp [hk])) _ (hs.1.trans h1)
        (hs.2.trans h2), cellsOf, cellsOf, List.flatMap_cons, List.foldl_append]

theorem fillOuter_ok {r n : ℕ} (hr : 0 < r) {post : Arr → Arr} (hp : KeepsShape post)
    {lam : LambdaFunction} {labels : List Label} {body : BlockFun} :
    ∀ (js : List ℕ), (∀ j ∈ js, j < n) → ∀ M M' : Arr, M.rows = n * r → M.cols = n * r →
      fillOuter lam r n labels body post js M = .ok M' →
      ∀ j ∈ js, ∀ i < n, ∃ b, BodyGives lam labels body i j b ∧ BlockShape r b := by
  intro js
  induction js with
  | nil => intro _ M M' _ _ _ i hi; simp at hi
  | cons j js ih =>
    intro hn M M' h1 h2 h
    have hj := hn j (by simp)
    rw [fillOuter, Int.toNat_natCast] at h
    obtain ⟨init, g1, h⟩ := py_bind_eq_ok h
    obtain ⟨l, g2, h⟩ := py_bind_eq_ok h
    obtain ⟨M1, g3, h⟩ := py_bind_eq_ok h
    have hin := fillInner_ok hr hp hj (pyGet_ok_some g1) g2 _ (fun i hi => List.mem_range.1 hi) M M1
      h1 h2 g3
    have hshape : M1.rows = n * r ∧ M1.cols = n * r := by
      choose! b hb using hin
      have := fillInner_eq hr hp hj (pyGet_ok_some g1) g2 (fun i _ => b i) (List.range n)
        (fun i hi => List.mem_range.1 hi) (fun i hi => hb i hi) M h1 h2
      rw [g3] at this
      injection this with this
      have hs := foldl_blkStep_shape (r := r) hp (fun i _ => b i) ((List.range n).map fun i => (i, j)) M
      rw [← this] at hs
      exact ⟨hs.1.trans h1, hs.2.trans h2⟩
    intro k hk i hi
    rw [List.mem_cons] at hk
    rcases hk with rfl | hk
    · exact hin i (List.mem_range.2 hi)
    · exact ih (fun k hk => hn k (by simp [hk])) M1 M' hshape.1 hshape.2 h k hk i hi

/-- All cells. -/
def allCells (n : ℕ) : List (ℕ × ℕ) := cellsOf n (List.range n)

theorem mem_allCells {n i j : ℕ} : (i, j) ∈ allCells n ↔ i < n ∧ j < n := by
  simp only [allCells, cellsOf, List.mem_flatMap, List.mem_range, List.mem_map, Prod.mk.injEq]
  constructor
  · rintro ⟨a, ha, b, hb, rfl, rfl⟩; exact ⟨hb, ha⟩
  · rintro ⟨h1, h2⟩; exact ⟨j, h2, i, h1, rfl, rfl⟩

theorem allCells_nodup (n : ℕ) : (allCells n).Nodup := by
  unfold allCells cellsOf
  rw [List.nodup_flatMap]
  refine ⟨fun j _ => ?_, ?_⟩
  · exact List.nodup_range.map fun a b h => (Prod.mk.injEq _ _ _ _ ▸ h).1
  · refine List.nodup_range.imp ?_
    intro a b hab x hx hy
    simp only [List.mem_map] at hx hy
    obtain ⟨i, _, rfl⟩ := hx
    obtain ⟨k, _, h⟩ := hy
    simp only [Prod.mk.injEq] at h
    exact hab h.2.symm

/-- The loops succeed exactly if the body does for each pair of states, with blocks of the right
shape; then the blocks are written in the order of the loops. -/
theorem fillBlocks_iff {r n : ℕ} (hr : 0 < r) {post : Arr → Arr} (hp : KeepsShape post)
    {lam : LambdaFunction} {labels : List Label} {body : BlockFun} {M : Arr} :
    fillBlocks lam r n labels body post = .ok M ↔
      ∃ bs : ℕ → ℕ → Option Arr, (∀ i < n, ∀ j < n, BodyGives lam labels body i j (bs i j) ∧
        BlockShape r (bs i j)) ∧
        M = (allCells n).foldl (blkStep r post bs) (Arr.zeros (n * r) (n * r)) := by
  have hd : ((n : Int) * (r : Int)).toNat = n * r := by
    rw [show ((n : Int) * (r : Int)) = ((n * r : ℕ) : Int) by push_cast; ring, Int.toNat_natCast]
  unfold fillBlocks
  rw [hd, Int.toNat_natCast]
  constructor
  · intro h
    have := fillOuter_ok hr hp (List.range n) (fun i hi => List.mem_range.1 hi) _ _ rfl rfl h
    have h2 : ∀ i j, ∃ b, (i < n → j < n → BodyGives lam labels body i j b ∧ BlockShape r b) := by
      intro i j
      by_cases hij : i < n ∧ j < n
      · obtain ⟨b, hb⟩ := this j (List.mem_range.2 hij.2) i hij.1
        exact ⟨b, fun _ _ => hb⟩
      · exact ⟨none, fun h1 h2 => absurd ⟨h1, h2⟩ hij⟩
    choose bs hbs using h2
    refine ⟨bs, fun i hi j hj => hbs i j hi hj, ?_⟩
    have e := fillOuter_eq (r := r) (n := n) hr hp (lam := lam) (labels := labels) (body := body) bs
      (List.range n) (fun i hi => List.mem_range.1 hi)
      (fun j hj i hi => hbs i j hi (List.mem_range.1 hj)) (Arr.zeros (n * r) (n * r)) rfl rfl
    rw [h] at e
    injection e
  · rintro ⟨bs, hbs, rfl⟩
    exact fillOuter_eq hr hp bs (List.range n) (fun i hi => List.mem_range.1 hi)
      (fun j hj i hi => hbs i hi j (List.mem_range.1 hj)) _ rfl rfl

/-- The first exception met by the loops is the result: if the body raises for a pair of states
and gives blocks for all earlier pairs. -/
theorem fillBlocks_error {r n : ℕ} (hr : 0 < r) {post : Arr → Arr} (hp : KeepsShape post)
    {lam : LambdaFunction} {labels : List Label} {body : BlockFun} {i j : ℕ} (hi : i < n) (hj : j < n)
    {init fin : Label} {l : Int} {e : PyErr} (h1 : labels[j]? = some init) (h2 : labels[i]? = some fin)
    (h3 : lam init.1 = .ok l) (h4 : body i j init fin l = .error e)
    (before : ∀ i' j', i' < n → j' < n → (j' < j ∨ (j' = j ∧ i' < i)) →
      ∃ b, BodyGives lam labels body i' j' b ∧ BlockShape r b) :
    fillBlocks lam r n labels body post = .error e := by
  have hd : ((n : Int) * (r : Int)).toNat = n * r := by
    rw [show ((n : Int) * (r : Int)) = ((n * r : ℕ) : Int) by push_cast; ring, Int.toNat_natCast]
  have inner : ∀ (is : List ℕ) (rest : List ℕ) (M : Arr), M.rows = n * r → M.cols = n * r →
      (∀ k ∈ is, k < i) →
      fillInner r labels body post j init l (is ++ i :: rest) M = .error e := by
    intro is
    induction is with
    | nil =>
      intro rest M _ _ _
      rw [List.nil_append, fillInner, pyGet_some h2, py_bind_ok, h4]
      rfl
    | cons k is ih =>
      intro rest M m1 m2 hk
      have hki := hk k (by simp)
      obtain ⟨b, ⟨init', fin', l', g1, g2, g3, g4⟩, g5⟩ := before k j (by omega) hj (Or.inr ⟨rfl, hki⟩)
      rw [h1] at g1
      injection g1 with g1
      subst g1
      rw [h3] at g3
      injection g3 with g3
      subst g3
      have hs := blkStep_shape (r := r) hp (fun _ _ => b) M (k, j)
      rw [List.cons_append, fillInner, pyGet_some g2, py_bind_ok, g4, py_bind_ok,
        fillWrite_eq hr post m1 m2 (by omega) hj (fun _ _ => b) g5, py_bind_ok]
      exact ih rest _ (hs.1.trans m1) (hs.2.trans m2) fun k hk' => hk k (by simp [hk'])
  have hrange : ∀ m < n, List.range n = List.range m ++ m :: (List.range (n - m - 1)).map (· + (m + 1)) := by
    intro m hm
    have e : n = m + 1 + (n - m - 1) := by omega
    conv_lhs => rw [e]
    rw [List.range_add, List.range_succ, List.append_assoc, List.singleton_append]
    congr 2
    exact List.map_congr_left fun x _ => by omega
  have outer : ∀ (js : List ℕ) (rest : List ℕ) (M : Arr), M.rows = n * r → M.cols = n * r →
      (∀ k ∈ js, k < j) →
      fillOuter lam r n labels body post (js ++ j :: rest) M = .error e := by
    intro js
    induction js with
    | nil =>
      intro rest M m1 m2 _
      rw [List.nil_append, fillOuter, pyGet_some h1, py_bind_ok, h3, py_bind_ok, Int.toNat_natCast,
        hrange i hi, inner _ _ M m1 m2 fun k hk => List.mem_range.1 hk]
      rfl
    | cons k js ih =>
      intro rest M m1 m2 hk
      have hkj := hk k (by simp)
      have hb : ∀ i' , ∃ b, (i' < n → BodyGives lam labels body i' k b ∧ BlockShape r b) := by
        intro i'
        by_cases hi' : i' < n
        · obtain ⟨b, hb⟩ := before i' k hi' (by omega) (Or.inl hkj)
          exact ⟨b, fun _ => hb⟩
        · exact ⟨none, fun h => absurd h hi'⟩
      choose b hb using hb
      obtain ⟨⟨init', fin', l', g1, g2, g3, g4⟩, g5⟩ := hb k (by omega)
      have hs := foldl_blkStep_shape (r := r) hp (fun i' _ => b i') ((List.range n).map fun i => (i, k)) M
      rw [List.cons_append, fillOuter, pyGet_some g1, py_bind_ok, g3, py_bind_ok, Int.toNat_natCast,
        fillInner_eq hr hp (by omega) g1 g3 (fun i' _ => b i') _ (fun i hi => List.mem_range.1 hi)
          (fun i hi => hb i (List.mem_range.1 hi)) M m1 m2, py_bind_ok]
      exact ih rest _ (hs.1.trans m1) (hs.2.trans m2) fun k hk' => hk k (by simp [hk'])
  unfold fillBlocks
  rw [hd, Int.toNat_natCast, hrange j hj]
  exact outer _ _ _ rfl rfl fun k hk => List.mem_range.1 hk

/-- The number of blocks written from cell `c` on (inclusive). -/
def writesFrom (bs : ℕ → ℕ → Option Arr) (cs : List (ℕ × ℕ)) (c : ℕ × ℕ) : ℕ :=
  (cs.dropWhile fun d => !decide (d = c)).countP fun d => (bs d.1 d.2).isSome

/-- Entries after writing blocks, when `post` multiplies every entry by `s`. -/
theorem foldl_blkStep_e {r : ℕ} {post : Arr → Arr} {s : ℝ} (hs : ∀ M p q, (post M).e p q = s * M.e p q)
    (bs : ℕ → ℕ → Option Arr) (cs : List (ℕ × ℕ)) (hn : cs.Nodup) (M : Arr) (p q : ℕ) :
    (cs.foldl (blkStep r post bs) M).e p q =
      if (p / r, q / r) ∈ cs then
        match bs (p / r) (q / r) with
        | some B => s ^ writesFrom bs cs (p / r, q / r) * B.e (p % r) (q % r)
        | none => s ^ (cs.countP fun d => (bs d.1 d.2).isSome) * M.e p q
      else s ^ (cs.countP fun d => (bs d.1 d.2).isSome) * M.e p q := by
  induction cs generalizing M with
  | nil => simp
  | cons c cs ih =>
    rw [List.foldl_cons, ih (List.nodup_cons.1 hn).2]
    have hc := (List.nodup_cons.1 hn).1
    obtain ⟨i, j⟩ := c
    by_cases hm : (p / r, q / r) = (i, j)
    · -- the cell written first
      have e1 : p / r = i := (Prod.mk.injEq _ _ _ _ ▸ hm).1
      have e2 : q / r = j := (Prod.mk.injEq _ _ _ _ ▸ hm).2
      rw [hm, if_neg hc, if_pos (by simp), e1, e2]
      unfold blkStep writesFrom
      cases hb : bs i j with
      | none => simp [hb]
      | some B =>
        simp only [hs, List.dropWhile_cons, decide_true, Bool.not_true]
        rw [if_neg (by simp), List.countP_cons_of_pos (by simp [hb]), pow_succ, mul_assoc]
        simp [blkWrite, e1, e2]
    · have hw : writesFrom bs ((i, j) :: cs) (p / r, q / r) = writesFrom bs cs (p / r, q / r) := by
        unfold writesFrom
        rw [List.dropWhile_cons_of_pos]
        rw [Bool.not_eq_true', decide_eq_false_iff_not]
        exact fun h => hm h.symm
      have hM : s ^ (cs.countP fun d => (bs d.1 d.2).isSome) * (blkStep r post bs M (i, j)).e p q
          = s ^ (((i, j) :: cs).countP fun d => (bs d.1 d.2).isSome) * M.e p q := by
        unfold blkStep
        cases hb : bs i j with
        | none => simp [hb]
        | some B =>
          simp only [hs]
          rw [List.countP_cons_of_pos (by simp [hb]), pow_succ, mul_assoc]
          congr 2
          simp only [blkWrite]
          rw [if_neg]
          rintro ⟨a, b⟩
          exact hm (by rw [a, b])
      by_cases hmem : (p / r, q / r) ∈ cs
      · rw [if_pos hmem, if_pos (by simp [hmem]), hw, hM]
      · rw [if_neg hmem, if_neg (by simp only [List.mem_cons]; tauto), hM]

/-- With nothing done between the blocks, the matrix consists of the blocks. -/
theorem fillBlocks_id {r n : ℕ} (hr : 0 < r) {lam : LambdaFunction} {labels : List Label}
    {body : BlockFun} {M : Arr} :
    fillBlocks lam r n labels body id = .ok M ↔
      Square (n * r) M ∧ ∀ i < n, ∀ j < n, ∃ b, BodyGives lam labels body i j b ∧ BlockShape r b ∧
        ∀ x < r, ∀ y < r, M.e (i * r + x) (j * r + y) = match b with | some B => B.e x y | none => 0 := by
  have hp : KeepsShape id := fun M => ⟨rfl, rfl⟩
  have hdm : ∀ i x, x < r → (i * r + x) / r = i ∧ (i * r + x) % r = x := by
    intro i x hx
    refine ⟨?_, ?_⟩
    · rw [Nat.mul_comm, Nat.mul_add_div hr, Nat.div_eq_of_lt hx, Nat.add_zero]
    · rw [Nat.mul_comm, Nat.mul_add_mod, Nat.mod_eq_of_lt hx]
  have ent : ∀ (bs : ℕ → ℕ → Option Arr) (p q : ℕ),
      ((allCells n).foldl (blkStep r id bs) (Arr.zeros (n * r) (n * r))).e p q =
        if p / r < n ∧ q / r < n then (match bs (p / r) (q / r) with
          | some B => B.e (p % r) (q % r) | none => 0) else 0 := by
    intro bs p q
    rw [foldl_blkStep_e (s := 1) (fun M p q => by simp) bs _ (allCells_nodup n)]
    have hz : (Arr.zeros (n * r) (n * r)).e p q = 0 := by simp [Arr.zeros, Arr.of]
    rw [hz]
    simp only [one_pow, one_mul, mem_allCells]
    
  rw [fillBlocks_iff hr hp]
  constructor
  · rintro ⟨bs, hbs, rfl⟩
    have hs := foldl_blkStep_shape (r := r) hp bs (allCells n) (Arr.zeros (n * r) (n * r))
    refine ⟨⟨hs.1, hs.2, fun p q hpq => ?_⟩, fun i hi j hj => ⟨bs i j, (hbs i hi j hj).1, (hbs i hi j hj).2, fun x hx y hy => ?_⟩⟩
    · rw [ent, if_neg]
      rw [Nat.div_lt_iff_lt_mul hr, Nat.div_lt_iff_lt_mul hr]
      exact hpq
    · rw [ent, (hdm i x hx).1, (hdm i x hx).2, (hdm j y hy).1, (hdm j y hy).2, if_pos ⟨hi, hj⟩]
  · rintro ⟨sq, h⟩
    have h2 : ∀ i j, ∃ b, (i < n → j < n → BodyGives lam labels body i j b ∧ BlockShape r b ∧
        ∀ x < r, ∀ y < r, M.e (i * r + x) (j * r + y) = match b with | some B => B.e x y | none => 0) := by
      intro i j
      by_cases hij : i < n ∧ j < n
      · obtain ⟨b, hb⟩ := h i hij.1 j hij.2
        exact ⟨b, fun _ _ => hb⟩
      · exact ⟨none, fun h1 h2 => absurd ⟨h1, h2⟩ hij⟩
    choose bs hbs using h2
    refine ⟨bs, fun i hi j hj => ⟨(hbs i j hi hj).1, (hbs i j hi hj).2.1⟩, ?_⟩
    have hs := foldl_blkStep_shape (r := r) hp bs (allCells n) (Arr.zeros (n * r) (n * r))
    refine Arr.ext (sq.1.trans hs.1.symm) (sq.2.1.trans hs.2.symm) ?_
    funext p q
    rw [ent]
    by_cases hpq : p / r < n ∧ q / r < n
    · rw [if_pos hpq]
      have := (hbs (p / r) (q / r) hpq.1 hpq.2).2.2 (p % r) (Nat.mod_lt _ hr) (q % r) (Nat.mod_lt _ hr)
      rw [Nat.div_add_mod', Nat.div_add_mod'] at this
      rw [this]
    · rw [if_neg hpq]
      refine sq.2.2 p q ?_
      rw [← Nat.div_lt_iff_lt_mul hr, ← Nat.div_lt_iff_lt_mul hr]
      exact hpq

end Acm
