import Verif.Props.FullBlocks

/-!
# Lemmas on AmpXspeig
-/

namespace Acm

open Acm.Spec Acm.Props

theorem ampSet_ok {tran res res' : LBlockArray} (hm : Made res.full_space) {Lr Lc : Int} {Pi P : Arr}
    (h : ampSet tran res Lr Lc Pi P = .ok res') :
    (∃ T, tran.get_block Lr Lc = .ok T ∧ Pi.cols = T.rows ∧ T.cols = P.rows ∧
      BlockIs res' Lr Lc ((Pi.mul T).mul P)) ∧
    (∀ Kr Kc, (Kr, Kc) ≠ (Lr, Lc) → res'.get_block Kr Kc = res.get_block Kr Kc) ∧
    res'.full_space = res.full_space ∧ res'.mat.rows = res.mat.rows ∧ res'.mat.cols = res.mat.cols := by
  unfold ampSet at h
  obtain ⟨T, hT, h⟩ := py_bind_eq_ok h
  obtain ⟨X, hX, h⟩ := py_bind_eq_ok h
  obtain ⟨Y, hY, h⟩ := py_bind_eq_ok h
  unfold Arr.matmul at hX hY
  split_ifs at hX with h1
  · split_ifs at hY with h2
    · injection hX with hX
      injection hY with hY
      subst hX hY
      obtain ⟨⟨G, g1, g2, g3, g4⟩, h5, h6⟩ := C34_set_get hm h
      exact ⟨⟨T, hT, h1, h2, G, g1, g2, g3, g4⟩, h5, h6⟩

theorem ampInner_ok {tran : LBlockArray} {Lr : Int} {Pi : Arr} : ∀ (cols : List (Arr × Int)),
    (cols.map Prod.snd).Nodup → ∀ (res res' : LBlockArray), Made res.full_space →
    ampInner tran Lr Pi cols res = .ok res' →
    (∀ c ∈ cols, ∃ T, tran.get_block Lr c.2 = .ok T ∧ Pi.cols = T.rows ∧ T.cols = c.1.rows ∧
      BlockIs res' Lr c.2 ((Pi.mul T).mul c.1)) ∧
    (∀ Kr Kc, (Kr ≠ Lr ∨ Kc ∉ cols.map Prod.snd) → res'.get_block Kr Kc = res.get_block Kr Kc) ∧
    res'.full_space = res.full_space ∧ res'.mat.rows = res.mat.rows ∧ res'.mat.cols = res.mat.cols := by
  intro cols
  induction cols with
  | nil =>
    intro _ res res' _ h
    injection h with h
    subst h
    exact ⟨(fun c hc => by cases hc), fun _ _ _ => rfl, rfl, rfl, rfl⟩
  | cons c cols ih =>
    intro hn res res' hm h
    rw [List.map_cons, List.nodup_cons] at hn
    obtain ⟨P, Lc⟩ := c
    rw [ampInner] at h
    obtain ⟨r1, hr1, h⟩ := py_bind_eq_ok h
    obtain ⟨⟨T, t1, t2, t3, t4⟩, a2, a3, a4, a5⟩ := ampSet_ok hm hr1
    obtain ⟨b1, b2, b3, b4, b5⟩ := ih hn.2 r1 res' (by rw [a3]; exact hm) h
    refine ⟨fun c' hc' => ?_, fun Kr Kc hK => ?_, b3.trans a3, b4.trans a4, b5.trans a5⟩
    · rcases List.mem_cons.1 hc' with rfl | hc'
      · refine ⟨T, t1, t2, t3, ?_⟩
        obtain ⟨G, g1, g2⟩ := t4
        exact ⟨G, by rw [b2 Lr Lc (.inr hn.1)]; exact g1, g2⟩
      · exact b1 c' hc'
    · rw [List.map_cons, List.mem_cons, not_or] at hK
      have h1 : (Kr, Kc) ≠ (Lr, Lc) := by
        intro hh
        injection hh with e1 e2
        rcases hK with hK | hK
        · exact hK e1
        · exact hK.1 e2
      rw [b2 Kr Kc (hK.imp id And.right), a2 Kr Kc h1]

theorem ampOuter_ok {tran : LBlockArray} {cols : List (Arr × Int)} (hc : (cols.map Prod.snd).Nodup) :
    ∀ (rows : List (Arr × Int)), (rows.map Prod.snd).Nodup → ∀ (res res' : LBlockArray), Made res.full_space →
    ampOuter tran cols rows res = .ok res' →
    (∀ r ∈ rows, ∀ c ∈ cols, ∃ T, tran.get_block r.2 c.2 = .ok T ∧ r.1.cols = T.rows ∧ T.cols = c.1.rows ∧
      BlockIs res' r.2 c.2 ((r.1.mul T).mul c.1)) ∧
    (∀ Kr Kc, Kr ∉ rows.map Prod.snd → res'.get_block Kr Kc = res.get_block Kr Kc) ∧
    res'.full_space = res.full_space ∧ res'.mat.rows = res.mat.rows ∧ res'.mat.cols = res.mat.cols := by
  intro rows
  induction rows with
  | nil =>
    intro _ res res' _ h
    injection h with h
    subst h
    exact ⟨(fun r hr => by cases hr), fun _ _ _ => rfl, rfl, rfl, rfl⟩
  | cons r rows ih =>
    intro hn res res' hm h
    rw [List.map_cons, List.nodup_cons] at hn
    obtain ⟨Pi, Lr⟩ := r
    rw [ampOuter] at h
    obtain ⟨r1, hr1, h⟩ := py_bind_eq_ok h
    obtain ⟨a1, a2, a3, a4, a5⟩ := ampInner_ok cols hc _ _ hm hr1
    obtain ⟨b1, b2, b3, b4, b5⟩ := ih hn.2 r1 res' (by rw [a3]; exact hm) h
    refine ⟨fun r' hr' c hcm => ?_, fun Kr Kc hK => ?_, b3.trans a3, b4.trans a4, b5.trans a5⟩
    · rcases List.mem_cons.1 hr' with rfl | hr'
      · obtain ⟨T, t1, t2, t3, G, g1, g2⟩ := a1 c hcm
        exact ⟨T, t1, t2, t3, G, by rw [b2 Lr c.2 hn.1]; exact g1, g2⟩
      · exact b1 r' hr' c hcm
    · rw [List.map_cons, List.mem_cons, not_or] at hK
      rw [b2 Kr Kc hK.2, a2 Kr Kc (.inl hK.1)]

/-- The shape of a block of a matrix that fits the block structure. -/
theorem get_block_shape {A : LBlockArray} (hm : Made A.full_space) {d : Int → ℕ}
    (hd : d = ldim A.full_space.nu_min A.full_space.nu_max A.full_space.v_min A.full_space.v_max)
    (hr : A.mat.rows = (A.full_space.Lvals.map d).sum) (hc : A.mat.cols = (A.full_space.Lvals.map d).sum)
    {Lr Lc : Int} (h1 : Lr ∈ A.full_space.Lvals) (h2 : Lc ∈ A.full_space.Lvals) :
    ∃ T, A.get_block Lr Lc = .ok T ∧ T.rows = d Lr ∧ T.cols = d Lc := by
  rw [← made_key hm] at h1 h2
  obtain ⟨b, hb⟩ := get_block_exists.2 h1
  obtain ⟨c, hc'⟩ := get_block_exists.2 h2
  obtain ⟨k, rfl, hk⟩ := made_block hm hb
  obtain ⟨m, rfl, hm'⟩ := made_block hm hc'
  rw [← hd] at hk hm' hb hc'
  unfold LBlockArray.get_block
  simp only [hb, hc', py_bind_ok, slice_nat]
  refine ⟨_, rfl, ?_, ?_⟩
  · simp only [Arr.of, hr]; omega
  · simp only [Arr.of, hc]; omega

/-- `res` has the block structure of `tran`, and both fit it. -/
structure Fits (d : Int → ℕ) (A : LBlockArray) : Prop where
  made : Made A.full_space
  dim : d = ldim A.full_space.nu_min A.full_space.nu_max A.full_space.v_min A.full_space.v_max
  rows : A.mat.rows = (A.full_space.Lvals.map d).sum
  cols : A.mat.cols = (A.full_space.Lvals.map d).sum

theorem ampSet_exists {d : Int → ℕ} {tran res : LBlockArray} (ht : Fits d tran) (hr : Fits d res) {Lr Lc : Int}
    {Pi P : Arr} (h1 : Lr ∈ tran.full_space.Lvals) (h2 : Lc ∈ tran.full_space.Lvals)
    (h3 : Lr ∈ res.full_space.Lvals) (h4 : Lc ∈ res.full_space.Lvals)
    (p1 : Pi.rows = d Lr ∧ Pi.cols = d Lr) (p2 : P.rows = d Lc ∧ P.cols = d Lc) :
    ∃ res', ampSet tran res Lr Lc Pi P = .ok res' ∧ Fits d res' ∧ res'.full_space = res.full_space := by
  obtain ⟨T, hT, t1, t2⟩ := get_block_shape ht.made ht.dim ht.rows ht.cols h1 h2
  obtain ⟨G, hG, g1, g2⟩ := get_block_shape hr.made hr.dim hr.rows hr.cols h3 h4
  obtain ⟨res', hres⟩ := (C34_accepts hr.made Lr Lc ((Pi.mul T).mul P)).2
    ⟨G, hG, by rw [g1]; exact p1.1, by rw [g2]; exact p2.2⟩
  obtain ⟨_, _, e1, e2, e3⟩ := C34_set_get hr.made hres
  refine ⟨res', ?_, ⟨by rw [e1]; exact hr.made, by rw [e1]; exact hr.dim, by rw [e1, e2]; exact hr.rows,
    by rw [e1, e3]; exact hr.cols⟩, e1⟩
  unfold ampSet Arr.matmul
  have e4 : (Pi.mul T).cols = P.rows := by rw [p2.1, ← t2]; rfl
  rw [hT, py_bind_ok, if_pos (by rw [p1.2, t1])]
  show ((if (Pi.mul T).cols = P.rows then pure ((Pi.mul T).mul P) else throw .valueError : Py Arr) >>= fun Y =>
    res.set_block Lr Lc Y) = .ok res'
  rw [if_pos e4]
  exact hres

theorem ampInner_exists {d : Int → ℕ} {tran : LBlockArray} (ht : Fits d tran) {Lr : Int} {Pi : Arr}
    (h1 : Lr ∈ tran.full_space.Lvals) (p1 : Pi.rows = d Lr ∧ Pi.cols = d Lr) : ∀ (cols : List (Arr × Int)),
    (∀ c ∈ cols, c.2 ∈ tran.full_space.Lvals ∧ c.1.rows = d c.2 ∧ c.1.cols = d c.2) → ∀ (res : LBlockArray),
    Fits d res → res.full_space = tran.full_space →
    ∃ res', ampInner tran Lr Pi cols res = .ok res' ∧ Fits d res' ∧ res'.full_space = tran.full_space := by
  intro cols
  induction cols with
  | nil => intro _ res hr he; exact ⟨res, rfl, hr, he⟩
  | cons c cols ih =>
    intro hc res hr he
    obtain ⟨P, Lc⟩ := c
    obtain ⟨c1, c2⟩ := hc _ List.mem_cons_self
    obtain ⟨r1, e1, e2, e3⟩ := ampSet_exists ht hr h1 c1 (by rw [he]; exact h1) (by rw [he]; exact c1) p1 c2
    obtain ⟨r2, e4⟩ := ih (fun c hcm => hc c (List.mem_cons_of_mem _ hcm)) r1 e2 (e3.trans he)
    exact ⟨r2, by rw [ampInner, e1, py_bind_ok]; exact e4.1, e4.2⟩

theorem ampOuter_exists {d : Int → ℕ} {tran : LBlockArray} (ht : Fits d tran) {cols : List (Arr × Int)}
    (hc : ∀ c ∈ cols, c.2 ∈ tran.full_space.Lvals ∧ c.1.rows = d c.2 ∧ c.1.cols = d c.2) :
    ∀ (rows : List (Arr × Int)),
    (∀ c ∈ rows, c.2 ∈ tran.full_space.Lvals ∧ c.1.rows = d c.2 ∧ c.1.cols = d c.2) → ∀ (res : LBlockArray),
    Fits d res → res.full_space = tran.full_space →
    ∃ res', ampOuter tran cols rows res = .ok res' ∧ Fits d res' ∧ res'.full_space = tran.full_space := by
  intro rows
  induction rows with
  | nil => intro _ res hr he; exact ⟨res, rfl, hr, he⟩
  | cons r rows ih =>
    intro hrs res hr he
    obtain ⟨Pi, Lr⟩ := r
    obtain ⟨c1, c2⟩ := hrs _ List.mem_cons_self
    obtain ⟨r1, e1, e2, e3⟩ := ampInner_exists ht c1 c2 cols hc res hr he
    obtain ⟨r2, e4⟩ := ih (fun c hcm => hrs c (List.mem_cons_of_mem _ hcm)) r1 e2 e3
    exact ⟨r2, by rw [ampOuter, e1, py_bind_ok]; exact e4.1, e4.2⟩

end Acm
