import Verif.Lemmas.FullAmp

/-!
# Property C73: transition matrices between eigenstates
-/

namespace Acm.Props

open Acm Acm.Spec

theorem zip_snd_nodup {α : Type} {xs : List α} {Ls : List Int} (hn : Ls.Nodup) (hl : xs.length = Ls.length) :
    ((xs.zip Ls).map Prod.snd).Nodup := by
  rw [List.map_snd_zip (by omega)]; exact hn

/-- The state of `AmpXspeig` after the transition matrix has been computed. -/
theorem amp_eq {env : FEnv} {op : OperatorSum} {a : XArgs} (h : LegalRanges a) {Ls : List Int}
    (ho : OccupiedL a Ls) {l0 l1 : Int} (h0 : Ls.head? = some l0) (h1 : Ls.getLast? = some l1) {s : FState}
    (hs : MemoOk env.x s.xs) (bases : List Arr) :
    (AmpXspeig env op bases a Ls s).1 = (allMat env.x (XArgs.narrow a l0 l1) op s.glb.lam_fun >>= fun T =>
      ampBlocks env T bases ⟨a.nu_min, a.nu_max, a.v_min, a.v_max, Ls,
        blocksFrom (ldim a.nu_min a.nu_max a.v_min a.v_max) 0 Ls⟩ Ls) ∧
    ((AmpXspeig env op bases a Ls s).2.glb = s.glb.resetLap ∧ (AmpXspeig env op bases a Ls s).2.out = s.out ∧
      FOk env.x (AmpXspeig env op bases a Ls s).2) := by
  have hnn : ∀ L ∈ Ls, 0 ≤ L := fun L hL => by
    have := ((ho.2 L).1 hL).1; have := h.2.2.1; omega
  have hne : Ls ≠ [] := fun hh => by rw [hh] at h0; cases h0
  have hv : validate_Lvals Ls = .ok () := by rw [validate_Lvals_eq, if_pos ⟨hne, hnn, ho.1⟩]
  have hS := new_iff (S := ⟨a.nu_min, a.nu_max, a.v_min, a.v_max, Ls,
        blocksFrom (ldim a.nu_min a.nu_max a.v_min a.v_max) 0 Ls⟩).2 ⟨⟨h.1, h.2.1⟩, hnn, rfl⟩
  have g0 : pyGet Ls 0 = .ok l0 := by
    cases Ls with
    | nil => cases h0
    | cons x Ls => rw [List.head?_cons] at h0; injection h0 with h0; subst h0; rfl
  have g1 : pyGet Ls (-1) = .ok l1 := by
    have hpos : 0 < Ls.length := List.length_pos_iff.2 hne
    unfold pyGet
    rw [if_pos (by omega)]
    rw [if_pos (by omega), show ((-1 : Int) + (Ls.length : Int)).toNat = Ls.length - 1 by omega,
      ← List.getLast?_eq_getElem?, h1]
    rfl
  obtain ⟨s', e1, e2, e3, e4⟩ := liftX_rep (narrow_legal h ho h0 h1) hs op
  replace e1 : FM.liftX (RepXspace env.x op ⟨a.anorm, a.lambda_base, a.nu_min, a.nu_max, a.v_min, a.v_max, l0, l1⟩) s
    = (allMat env.x (XArgs.narrow a l0 l1) op s.glb.lam_fun, s') := e1
  unfold AmpXspeig
  rw [hv, st_lift_ok, hS, st_lift_ok, g0, st_lift_ok, g1, st_lift_ok]
  cases hT : allMat env.x (XArgs.narrow a l0 l1) op s.glb.lam_fun with
  | error e =>
    rw [hT] at e1
    rw [st_bind_error (x := FM.liftX _) e1]
    exact ⟨rfl, e3, e4, e2⟩
  | ok T =>
    rw [hT] at e1
    rw [st_bind_ok (x := FM.liftX _) e1]
    exact ⟨rfl, e3, e4, e2⟩

theorem forall_zip {α β : Type} {R : α → β → Prop} {xs : List α} {ys : List β} (h : List.Forall₂ R xs ys) :
    ∀ c ∈ xs.zip ys, R c.1 c.2 := by
  induction h with
  | nil => intro c hc; cases hc
  | cons h1 _ ih =>
    intro c hc
    rw [List.zip_cons_cons] at hc
    rcases List.mem_cons.1 hc with rfl | hc
    · exact h1
    · exact ih c hc

/-- C73: let `Ls` be the occupied L values of a range (from `l0` to `l1`), `bases` square
matrices of the dimensions of the subspaces, one for each L, and `T` the matrix of the
transition operator on the range.  Then `AmpXspeig` returns a matrix of the same size in which the
block of two angular momenta `(Lr, Lc)` is the block of `T`, multiplied from the left by the inverse of the basis for
`Lr` and from the right by the basis for `Lc`. -/
theorem C73_blocks {env : FEnv} (hla : LinAlgOk env.x.la) {op : OperatorSum} {a : XArgs} (h : LegalRanges a)
    {Ls : List Int} (ho : OccupiedL a Ls) {l0 l1 : Int} (h0 : Ls.head? = some l0) (h1 : Ls.getLast? = some l1)
    {bases : List Arr} (hb : List.Forall₂ (fun P L => P.cols = P.rows ∧
      dimXspace a.nu_min a.nu_max a.v_min a.v_max L none = .ok (P.rows : Int)) bases Ls)
    {s : FState} (hs : MemoOk env.x s.xs) {T : Arr}
    (hT : (RepXspace env.x op ⟨a.anorm, a.lambda_base, a.nu_min, a.nu_max, a.v_min, a.v_max, l0, l1⟩ s.xs).1 = .ok T) :
    ∃ R, (AmpXspeig env op bases a Ls s).1 = .ok R ∧
      LBlockFullSpace.new a.nu_min a.nu_max a.v_min a.v_max Ls = .ok R.full_space ∧
      R.mat.rows = T.rows ∧ R.mat.cols = T.cols ∧
      ∀ P Lr Q Lc, (P, Lr) ∈ bases.zip Ls → (Q, Lc) ∈ bases.zip Ls → ∃ B,
        LBlockArray.get_block ⟨T, R.full_space⟩ Lr Lc = .ok B ∧
        BlockIs R Lr Lc (((env.x.la.inv P).mul B).mul Q) := by
  replace hT : (RepXspace env.x op (XArgs.narrow a l0 l1) s.xs).1 = .ok T := hT
  rw [rep_eq (narrow_legal h ho h0 h1) hs] at hT
  have hT' : allMat env.x (XArgs.narrow a l0 l1) op s.glb.lam_fun = .ok T := hT
  rw [(amp_eq h ho h0 h1 hs bases).1, hT', py_bind_ok]
  have hsq := allMat_square (narrow_legal h ho h0 h1) hT'
  have hnn : ∀ L ∈ Ls, 0 ≤ L := fun L hL => by
    have := ((ho.2 L).1 hL).1; have := h.2.2.1; omega
  have hlv : LegalNuV a.nu_min a.nu_max a.v_min a.v_max := ⟨h.1, h.2.1⟩
  set d := ldim a.nu_min a.nu_max a.v_min a.v_max with hd
  set S : LBlockFullSpace := ⟨a.nu_min, a.nu_max, a.v_min, a.v_max, Ls, blocksFrom d 0 Ls⟩ with hSd
  have hS : LBlockFullSpace.new a.nu_min a.nu_max a.v_min a.v_max Ls = .ok S := new_iff.2 ⟨hlv, hnn, rfl⟩
  have hdim : (XArgs.narrow a l0 l1).dim = (Ls.map d).sum := by
    rw [← length_xlabels, xlabels_flat, ← occupied_eq (narrow_legal h ho h0 h1) (narrow_occupied ho h0 h1),
      length_flatMap_sum]
    congr 1
    exact List.map_congr_left fun L _ => by rw [length_xlabels]; rfl
  rw [hdim] at hsq
  have ft : Fits d ⟨T, S⟩ := ⟨made_of_new hS, rfl, hsq.1, hsq.2.1⟩
  have fr : Fits d ⟨⟨T.rows, T.cols, env.junk⟩, S⟩ := ⟨made_of_new hS, rfl, hsq.1, hsq.2.1⟩
  have hcols : ∀ c ∈ bases.zip Ls, c.2 ∈ Ls ∧ c.1.rows = d c.2 ∧ c.1.cols = d c.2 := by
    intro c hc
    have hm : c.2 ∈ Ls := List.of_mem_zip hc |>.2
    obtain ⟨e1, e2⟩ := forall_zip hb c hc
    rw [dimXspace_ldim hlv (hnn _ hm)] at e2
    injection e2 with e2
    have e3 : d c.2 = c.1.rows := by exact_mod_cast e2
    exact ⟨hm, e3.symm, e1.trans e3.symm⟩
  have hzip : (bases.map env.x.la.inv).zip Ls = (bases.zip Ls).map fun c => (env.x.la.inv c.1, c.2) := by
    rw [List.zip_map_left]; rfl
  have hrows : ∀ c ∈ (bases.map env.x.la.inv).zip Ls, c.2 ∈ Ls ∧ c.1.rows = d c.2 ∧ c.1.cols = d c.2 := by
    intro c hc
    rw [hzip] at hc
    obtain ⟨c', hc', rfl⟩ := List.mem_map.1 hc
    obtain ⟨e1, e2, e3⟩ := hcols c' hc'
    obtain ⟨e4, e5⟩ := hla.inv_shape _ c'.1 e2 e3
    exact ⟨e1, e4, e5⟩
  obtain ⟨R, hR, _, hRS⟩ := ampOuter_exists ft hcols _ hrows _ fr rfl
  have hnd := occupied_nodup ho
  have hlen := hb.length_eq
  obtain ⟨a1, _, a3, a4, a5⟩ := ampOuter_ok (zip_snd_nodup hnd hlen) _
    (zip_snd_nodup (xs := bases.map env.x.la.inv) hnd (by rw [List.length_map]; exact hlen)) _ R (made_of_new hS) hR
  refine ⟨R, ?_, by rw [hRS]; exact hS, a4, a5, fun P Lr Q Lc hP hQ => ?_⟩
  · unfold ampBlocks LBlockArray.new
    rw [if_neg (by rw [hsq.1, hsq.2.1]; simp)]
    show ((if T.rows ≠ T.cols then throw .valueError else pure ⟨⟨T.rows, T.cols, env.junk⟩, S⟩ : Py LBlockArray) >>=
      fun result => ampOuter ⟨T, S⟩ (bases.zip Ls) ((bases.map env.x.la.inv).zip Ls) result) = .ok R
    rw [if_neg (by rw [hsq.1, hsq.2.1]; simp)]
    exact hR
  · obtain ⟨B, b1, _, _, b4⟩ := a1 (env.x.la.inv P, Lr) (by
      rw [hzip]; exact List.mem_map.2 ⟨_, hP, rfl⟩) (Q, Lc) hQ
    exact ⟨B, by rw [hRS]; exact b1, b4⟩

theorem pair_of_mem {bases : List Arr} {Ls : List Int} (hl : bases.length = Ls.length) {L : Int} (h : L ∈ Ls) :
    ∃ P, (P, L) ∈ bases.zip Ls := by
  rw [← List.map_snd_zip (l₁ := bases) (l₂ := Ls) (by omega)] at h
  obtain ⟨c, hc, rfl⟩ := List.mem_map.1 h
  exact ⟨c.1, hc⟩

/-- C73: no element of the result depends on the memory that `np.empty` happened to get. -/
theorem C73_memory {x : XEnv} (hla : LinAlgOk x.la) (j1 j2 : ℕ → ℕ → ℝ) {op : OperatorSum} {a : XArgs}
    (h : LegalRanges a) {Ls : List Int} (ho : OccupiedL a Ls) {l0 l1 : Int} (h0 : Ls.head? = some l0)
    (h1 : Ls.getLast? = some l1) {bases : List Arr} (hb : List.Forall₂ (fun P L => P.cols = P.rows ∧
      dimXspace a.nu_min a.nu_max a.v_min a.v_max L none = .ok (P.rows : Int)) bases Ls)
    {s : FState} (hs : MemoOk x s.xs) {T : Arr}
    (hT : (RepXspace x op ⟨a.anorm, a.lambda_base, a.nu_min, a.nu_max, a.v_min, a.v_max, l0, l1⟩ s.xs).1 = .ok T) :
    ∃ R1 R2, (AmpXspeig ⟨x, j1⟩ op bases a Ls s).1 = .ok R1 ∧ (AmpXspeig ⟨x, j2⟩ op bases a Ls s).1 = .ok R2 ∧
      R1.mat.rows = R2.mat.rows ∧ R1.mat.cols = R2.mat.cols ∧
      ∀ p q, p < R1.mat.rows → q < R1.mat.cols → R1.mat.e p q = R2.mat.e p q := by
  obtain ⟨R1, e1, n1, r1, c1, b1⟩ := C73_blocks (env := ⟨x, j1⟩) hla h ho h0 h1 hb hs hT
  obtain ⟨R2, e2, n2, r2, c2, b2⟩ := C73_blocks (env := ⟨x, j2⟩) hla h ho h0 h1 hb hs hT
  refine ⟨R1, R2, e1, e2, by rw [r1, r2], by rw [c1, c2], fun p q hp hq => ?_⟩
  obtain ⟨xs, S, x1, _, x3, _, x5, _, x7⟩ := C33_tiling h ho h0 h1
  have hS1 : R1.full_space = S := by rw [n1] at x3; injection x3
  have hS2 : R2.full_space = S := by rw [n2] at x3; injection x3
  replace hT : (RepXspace x op (XArgs.narrow a l0 l1) s.xs).1 = .ok T := hT
  rw [rep_eq (narrow_legal h ho h0 h1) hs] at hT
  have hsq := allMat_square (narrow_legal h ho h0 h1) hT
  have hxl : xs.length = (XArgs.narrow a l0 l1).dim := by
    have hx2 := lbsXspace_ok (narrow_legal h ho h0 h1)
    have hx3 : lbsXspace a.nu_min a.nu_max a.v_min a.v_max l0 (some l1) = .ok (XArgs.narrow a l0 l1).xlabels := hx2
    rw [x1] at hx3
    injection hx3 with hx3
    rw [hx3, length_xlabels]
  have hlen := hb.length_eq
  have hpos : ∀ p, p < xs.length → ∃ (L : Int) (b e : ℕ), L ∈ Ls ∧ S.get_block_for_L L = .ok ((b : Int), (e : Int)) ∧
      b ≤ p ∧ p < e ∧ e ≤ xs.length := by
    intro p hp
    have hm := x7 xs[p] (List.getElem_mem hp)
    obtain ⟨b, e, y1, y2, y3, y4, y5⟩ := x5 _ hm
    obtain ⟨z1, z2⟩ := (y5 p xs[p] (List.getElem?_eq_getElem hp)).1 rfl
    exact ⟨_, b, e, hm, y1, z1, z2, y3⟩
  rw [r1, hsq.1, ← hxl] at hp
  rw [c1, hsq.2.1, ← hxl] at hq
  obtain ⟨Lr, b, e, m1, y1, y2, y3, y4⟩ := hpos p hp
  obtain ⟨Lc, b', e', m2, z1, z2, z3, z4⟩ := hpos q hq
  obtain ⟨P, hP⟩ := pair_of_mem hlen m1
  obtain ⟨Q, hQ⟩ := pair_of_mem hlen m2
  obtain ⟨B1, t1, G1, g1, g2, g3, g4⟩ := b1 P Lr Q Lc hP hQ
  obtain ⟨B2, t2, G2, k1, k2, k3, k4⟩ := b2 P Lr Q Lc hP hQ
  rw [hS1] at t1
  rw [hS2, t1] at t2
  injection t2 with t2
  subst t2
  have entry : ∀ (R : LBlockArray) (G : Arr), R.full_space = S → R.mat.rows = xs.length → R.mat.cols = xs.length →
      R.get_block Lr Lc = .ok G → G.rows = e - b ∧ G.cols = e' - b' ∧ G.e (p - b) (q - b') = R.mat.e p q := by
    intro R G hRS hr hc hG
    unfold LBlockArray.get_block at hG
    rw [hRS, y1, z1] at hG
    simp only [py_bind_ok] at hG
    injection hG with hG
    subst hG
    unfold Arr.slice Arr.of
    simp only [sliceBound_nat, hr, hc]
    refine ⟨by omega, by omega, ?_⟩
    rw [if_pos ⟨by omega, by omega⟩]
    congr 1 <;> omega
  obtain ⟨w1, w2, w3⟩ := entry R1 G1 hS1 (by rw [r1, hsq.1, hxl]) (by rw [c1, hsq.2.1, hxl]) g1
  obtain ⟨_, _, w4⟩ := entry R2 G2 hS2 (by rw [r2, hsq.1, hxl]) (by rw [c2, hsq.2.1, hxl]) k1
  rw [← w3, ← w4, g4 _ _ (by omega) (by omega), k4 _ _ (by omega) (by omega)]

/-- C73 fails for Hamiltonians that are not tame: if there are two or more occupied L values, `AmpXspeig`
raises on the bases that `DigXspace` returns. -/
theorem C73_fails {env : FEnv} (hla : LinAlgOk env.x.la) {ham op : OperatorSum} (ht : Op_Tame ham = false)
    {a : XArgs} (h : LegalRanges a) {s s' : FState} (hs : MemoOk env.x s.xs) {M : Arr}
    (hM : (RepXspace env.x ham a s.xs).1 = .ok M) {r : List LEig} (hr : DigXspace env.x ham a s = (.ok r, s'))
    (h2 : 2 ≤ r.length) {s'' : FState} (hs'' : MemoOk env.x s''.xs) :
    ∃ e, (AmpXspeig env op (r.map LEig.basis) a (r.map LEig.L) s'').1 = .error e := by
  obtain ⟨r', hr', ho, hc, hsh⟩ := C32_untame ht h hs hM
  rw [hr] at hr'
  injection hr' with hr'
  subst hr'
  match r, h2, ho, hc, hsh with
  | x :: y :: r', _, ho, hc, hsh =>
  clear hr h2
  obtain ⟨d, hd, hv⟩ := hc [] x (y :: r') rfl
  rw [if_neg (by simp)] at hv
  obtain ⟨q1, q2⟩ := hsh hla x List.mem_cons_self
  have h0 : ((x :: y :: r').map LEig.L).head? = some x.L := rfl
  obtain ⟨l1, h1⟩ : ∃ l1, ((x :: y :: r').map LEig.L).getLast? = some l1 :=
    ⟨_, List.getLast?_eq_some_getLast (by simp)⟩
  have hnn : ∀ L ∈ (x :: y :: r').map LEig.L, 0 ≤ L := fun L hL => by
    have := ((ho.2 L).1 hL).1; have := h.2.2.1; omega
  have hlv : LegalNuV a.nu_min a.nu_max a.v_min a.v_max := ⟨h.1, h.2.1⟩
  have hxm : x.L ∈ (x :: y :: r').map LEig.L := List.mem_cons_self
  rw [dimXspace_ldim hlv (hnn _ hxm)] at hd
  injection hd with hd
  rw [(amp_eq h ho h0 h1 hs'' _).1]
  cases hT : allMat env.x (XArgs.narrow a x.L l1) op s''.glb.lam_fun with
  | error e => exact ⟨e, rfl⟩
  | ok T =>
    rw [py_bind_ok]
    have hsq := allMat_square (narrow_legal h ho h0 h1) hT
    have hdim : (XArgs.narrow a x.L l1).dim
        = (((x :: y :: r').map LEig.L).map (ldim a.nu_min a.nu_max a.v_min a.v_max)).sum := by
      rw [← length_xlabels, xlabels_flat, ← occupied_eq (narrow_legal h ho h0 h1) (narrow_occupied ho h0 h1),
        length_flatMap_sum]
      congr 1
      exact List.map_congr_left fun L _ => by rw [length_xlabels]; rfl
    rw [hdim] at hsq
    set S : LBlockFullSpace := ⟨a.nu_min, a.nu_max, a.v_min, a.v_max, (x :: y :: r').map LEig.L,
      blocksFrom (ldim a.nu_min a.nu_max a.v_min a.v_max) 0 ((x :: y :: r').map LEig.L)⟩ with hSd
    have hS : LBlockFullSpace.new a.nu_min a.nu_max a.v_min a.v_max ((x :: y :: r').map LEig.L) = .ok S :=
      new_iff.2 ⟨hlv, hnn, rfl⟩
    obtain ⟨B, hB, b1, b2⟩ := get_block_shape (A := ⟨T, S⟩) (made_of_new hS) rfl hsq.1 hsq.2.1 hxm hxm
    have hi := hla.inv_shape _ x.basis rfl (q2.trans q1.symm)
    refine ⟨.valueError, ?_⟩
    unfold ampBlocks LBlockArray.new
    rw [if_neg (by rw [hsq.1, hsq.2.1]; simp)]
    show ((if T.rows ≠ T.cols then throw .valueError else pure ⟨⟨T.rows, T.cols, env.junk⟩, S⟩ : Py LBlockArray) >>=
      fun result => ampOuter ⟨T, S⟩ _ _ result) = _
    rw [if_neg (by rw [hsq.1, hsq.2.1]; simp)]
    show ampOuter ⟨T, S⟩ _ _ _ = _
    simp only [List.map_cons, List.zip_cons_cons]
    rw [ampOuter, ampInner, ampSet, hB, py_bind_ok, Arr.matmul, if_neg]
    · rfl
    · rw [hi.2, q1, hv, b1]
      show ¬ d + 1 = ldim a.nu_min a.nu_max a.v_min a.v_max x.L
      omega

/-- The hypotheses of C73 are met, in every environment: the range with two states, unit bases and the empty sum as the
transition operator, in the initial state. -/
example (env : FEnv) (out : List Shown) :
    let s : FState := ⟨Glb.init, fun _ => none, fun _ _ => none, fun _ => none, out⟩
    LegalRanges arg22 ∧ OccupiedL arg22 [2, 4] ∧
      List.Forall₂ (fun P L => P.cols = P.rows ∧
        dimXspace arg22.nu_min arg22.nu_max arg22.v_min arg22.v_max L none = .ok (P.rows : Int)) [Arr.eye 1, Arr.eye 1] [2, 4] ∧
      MemoOk env.x s.xs ∧ ∃ T, (RepXspace env.x [] arg22 s.xs).1 = .ok T := by
  intro s
  have hs : MemoOk env.x s.xs := memoOk_start env.x lambda_acm_fun
  refine ⟨arg22_legal, ?_, ?_, hs, ?_⟩
  · have : arg22.Ls = [2, 4] := by
      unfold XArgs.Ls
      have hL : ∀ L : Int, arg22.occ L = decide (0 < (labelsV 2 2 L L).length) := fun _ => rfl
      rw [List.filter_congr (fun L _ => hL L)]
      decide +kernel
    rw [← this]
    exact occupied_Ls arg22_legal
  · have h2 : dimXspace 0 0 2 2 2 none = .ok 1 := by decide +kernel
    have h4 : dimXspace 0 0 2 2 4 none = .ok 1 := by decide +kernel
    exact .cons ⟨rfl, h2⟩ (.cons ⟨rfl, h4⟩ .nil)
  · rw [rep_eq arg22_legal hs]
    exact ⟨_, (allMat_iff arg22_legal).2 (.inl ⟨rfl, rfl⟩)⟩

end Acm.Props
