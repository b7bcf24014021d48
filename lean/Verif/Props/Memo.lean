import Verif.Lemmas.Memo

/-!
# C118: the memo tables change no result, and no array that was handed out is changed
-/

namespace Acm.Props

open Acm.Memo Acm.Spec

/-- After every history the tables hold what the procedures without tables give, and none of the arrays that
`RepRadial_LC` returned. -/
theorem history_good {la : LinAlg} {s : HState} {own : List ARef} (h : History la s own) :
    Good la {b | ∃ r ∈ own, r.base = b} s ∧ ∀ r ∈ own, r.win = [] := by
  induction h with
  | init =>
    exact ⟨⟨fun b hb => by simp at hb, fun k r hk => by simp [HState.init] at hk⟩, fun r hr => by simp at hr⟩
  | call _ ih => exact ⟨(sim_call ih.1 _).result.2.1, ih.2⟩
  | prod _ ih => exact ⟨(sim_Prod (Set.empty_subset _) _ _ _ ih.1 _ _ _ _).result.2.1, ih.2⟩
  | @lc s own op anorm lam var lo hi lap M s' _ hM ih =>
    rcases LC_common_ends anorm lo hi ih.1 op lam var lap with
      ⟨M', A, s1, h1, h2, g', e, hlt, hno, -, hw, hr⟩ | ⟨x, s1, h1, h2, g', e⟩
    · rw [Memo.RepRadial_LC, st_bind_ok h1] at hM
      have hM' : ((.ok M', (clear clearedByLC s1).2) : Py ARef × HState) = (.ok M, s') := hM
      obtain ⟨e1, rfl⟩ := Prod.mk.injEq _ _ _ _ ▸ hM'
      obtain rfl : M' = M := by injection e1
      refine ⟨?_, fun r hr => ?_⟩
      · have : {b | ∃ r ∈ M' :: own, r.base = b} = insert M'.base {b | ∃ r ∈ own, r.base = b} := by
          ext b
          simp [eq_comm]
        rw [this]
        exact good_clear g' _
      · rcases List.mem_cons.1 hr with rfl | hr
        · exact hw
        · exact ih.2 r hr
    · rw [Memo.RepRadial_LC, st_bind_error h1] at hM
      cases hM
  | @lc_error s own op anorm lam var lo hi lap x s' _ hM ih =>
    have := (sim_clear (sim_LC_common anorm lo hi ih.1 op lam var lap) clearedByLC).result
    have e : (do let r ← LC_common la op anorm lam var lo hi lap; clear clearedByLC; pure r : HM ARef) s =
      (.error x, s') := hM
    rw [e] at this
    exact ⟨this.2.1, ih.2⟩
  | clear _ ih => exact ⟨good_clear ih.1 _, ih.2⟩
  | @change s own r f _ hr ih =>
    refine ⟨⟨fun b hb => by simpa [change] using ih.1.bound b hb, fun k r' hk => ?_⟩, ih.2⟩
    obtain ⟨t1, t2, t3⟩ := ih.1.tab k r' hk
    refine ⟨by simpa [change] using t1, t2, ?_⟩
    have hne : r.base ≠ r'.base := fun h => t2 ⟨r, hr, h⟩
    rw [t3]
    simp [change, HState.read, List.getD_eq_getElem?_getD, List.getElem?_set_ne hne]

/-- **C118.**  After any history, the call of a memoised procedure returns an array with the entries that the procedure
without tables gives, or raises what it raises. -/
theorem C118_history {la : LinAlg} {s : HState} {own : List ARef} (h : History la s own) (k : Key) :
    memoResult (k.call la) s = unmemoised la k :=
  (sim_call (history_good h).1 k).result.1

/-- **C118**: the same for `RepRadial_Prod`, -/
theorem C118_history_prod {la : LinAlg} {s : HState} {own : List ARef} (h : History la s own)
    (op : List RadSym) (anorm lam : ℝ) (var lo hi lap : Int) :
    memoResult (Memo.RepRadial_Prod la op anorm lam var lo hi lap) s = RepRadialProd la anorm op lam var lo hi lap :=
  (sim_Prod (Set.empty_subset _) anorm lo hi (history_good h).1 op lam var lap).result.1

/-- and for `RepRadial_LC`. -/
theorem C118_history_lc {la : LinAlg} {s : HState} {own : List ARef} (h : History la s own)
    (op : List (ℝ × List RadSym)) (anorm lam : ℝ) (var lo hi lap : Int) :
    memoResult (Memo.RepRadial_LC la op anorm lam var lo hi lap) s = Acm.RepRadial_LC la op anorm lam var lo hi lap :=
  (sim_clear (sim_LC_common anorm lo hi (history_good h).1 op lam var lap) clearedByLC).result.1

theorem untouched_of_ext {s s' : HState} (h : Ext ∅ s s') : Untouched s s' :=
  fun _ hr => h.read hr (Set.notMem_empty _)

/-- **C118.**  No call changes the entries of an array that was there before: not those in the tables, not those that
were returned, not those of the caller. -/
theorem C118_keeps {la : LinAlg} {s : HState} {own : List ARef} (h : History la s own) :
    (∀ k : Key, Untouched s (k.call la s).2) ∧
    (∀ op anorm lam var lo hi lap, Untouched s (Memo.RepRadial_Prod la op anorm lam var lo hi lap s).2) ∧
    (∀ op anorm lam var lo hi lap, Untouched s (Memo.RepRadial_LC la op anorm lam var lo hi lap s).2) := by
  have g := (history_good h).1
  refine ⟨fun k => untouched_of_ext (sim_call g k).result.2.2, fun op anorm lam var lo hi lap => ?_,
    fun op anorm lam var lo hi lap => ?_⟩
  · exact untouched_of_ext (sim_Prod (Set.empty_subset _) anorm lo hi g op lam var lap).result.2.2
  · exact untouched_of_ext (sim_clear (sim_LC_common anorm lo hi g op lam var lap) clearedByLC).result.2.2

/-- A history with a remembered array, and an array of the caller, who has changed it. -/
example {la : LinAlg} : ∃ s r, History la s [r] ∧ s.read r = (Arr.zeros 1 1).add (Arr.eye 1) ∧
    s.tab (.rep .S0 (5 / 2) 0 1) ≠ none := by
  let s0 : HState := (clear clearedByLC ⟨[Arr.zeros 1 1], fun _ => none⟩).2
  have h0 : Memo.RepRadial_LC la [] 1 1 0 0 0 0 HState.init = (.ok ⟨0, []⟩, s0) := rfl
  let s1 : HState := (change ⟨0, []⟩ (fun M => M.add (Arr.eye 1)) s0).2
  have h1 : History la s1 [⟨0, []⟩] := History.change (History.lc History.init h0) List.mem_cons_self
  refine ⟨_, _, History.call (k := .rep .S0 (5 / 2) 0 1) h1, ?_, ?_⟩
  · rw [(C118_keeps h1).1 _ _ (by simp [s1, change, s0, clear])]
    rfl
  · have hA : ∃ A, unmemoised la (.rep .S0 (5 / 2) 0 1) = .ok A :=
      ⟨_, if_pos fun i _ j _ => ⟨_, rfl⟩⟩
    obtain ⟨A, hA⟩ := hA
    have h2 := C118_history h1 (.rep .S0 (5 / 2) 0 1)
    rw [hA, memoResult] at h2
    rcases hc : (Key.rep .S0 (5 / 2) 0 1).call la s1 with ⟨x | x, t⟩
    · rw [hc] at h2
      cases h2
    · rw [call_tab _ hc]
      simp

/-- **C118.**  The array that `RepRadial_LC` returns is new, and is stored in no table. -/
theorem C118_fresh {la : LinAlg} {s s' : HState} {own : List ARef} (h : History la s own)
    {op : List (ℝ × List RadSym)} {anorm lam : ℝ} {var lo hi lap : Int} {M : ARef}
    (hM : Memo.RepRadial_LC la op anorm lam var lo hi lap s = (.ok M, s')) :
    s.mem.length ≤ M.base ∧ M.win = [] ∧ Unshared s' M := by
  have g := history_good (History.lc h hM)
  refine ⟨?_, g.2 M List.mem_cons_self, fun k r hk e => (g.1.tab k r hk).2.1 ⟨M, List.mem_cons_self, e.symm⟩⟩
  rcases LC_common_ends anorm lo hi (history_good h).1 op lam var lap with
    ⟨M', A, s1, h1, h2, g', e, hlt, hno, hnew, hw, hr⟩ | ⟨x, s1, h1, h2, g', e⟩
  · rw [Memo.RepRadial_LC, st_bind_ok h1] at hM
    have hM' : ((.ok M', (clear clearedByLC s1).2) : Py ARef × HState) = (.ok M, s') := hM
    obtain ⟨e1, -⟩ := Prod.mk.injEq _ _ _ _ ▸ hM'
    obtain rfl : M' = M := by injection e1
    exact hnew
  · rw [Memo.RepRadial_LC, st_bind_error h1] at hM
    cases hM

/-- **C118.**  Calls of memoised procedures forget nothing: what a table holds, it holds until it is cleared. -/
theorem C118_remember {la : LinAlg} {s : HState} {k : Key} {r : ARef} (h : s.tab k = some r) (k' : Key) :
    (k'.call la s).2.tab k = some r :=
  grows_call k' s k r h

/-- **C118.**  So a call that has succeeded is not computed again, whatever is called in between. -/
theorem C118_again {la : LinAlg} {s s' : HState} {k : Key} {r : ARef} (h : k.call la s = (.ok r, s')) (ks : List Key) :
    k.call la (ks.foldl (fun s k => (k.call la s).2) s') = (.ok r, ks.foldl (fun s k => (k.call la s).2) s') := by
  have ht : ∀ (ks : List Key) (s' : HState), s'.tab k = some r →
      (ks.foldl (fun s k => (k.call la s).2) s').tab k = some r := by
    intro ks
    induction ks with
    | nil => exact fun _ h => h
    | cons k' ks ih => exact fun s' h => ih _ (C118_remember h k')
  exact call_hit k (ht ks s' (call_tab k h))

/-- **C118.**  `RepRadial_Prod` leaves nothing in the tables but what `RepRadial_Prod_rem` and `RepRadial_LC_rem`
remember; `RepRadial_LC` nothing but what `RepRadial_bS_DS` and `RepRadial_LC_rem` do. -/
theorem C118_cleared {la : LinAlg} {s s' : HState} {r : ARef} :
    (∀ op anorm lam var lo hi lap, Memo.RepRadial_Prod la op anorm lam var lo hi lap s = (.ok r, s') →
      ∀ k r', s'.tab k = some r' → (∃ op a l v lo hi lap, k = .prod op a l v lo hi lap) ∨
        ∃ op a l v lo hi lap, k = .lc op a l v lo hi lap) ∧
    (∀ op anorm lam var lo hi lap, Memo.RepRadial_LC la op anorm lam var lo hi lap s = (.ok r, s') →
      ∀ k r', s'.tab k = some r' → (∃ K T a l R lo hi, k = .bS_DS K T a l R lo hi) ∨
        ∃ op a l v lo hi lap, k = .lc op a l v lo hi lap) := by
  constructor
  · intro op anorm lam var lo hi lap h k r' hk
    rcases hp : Prod_common la op anorm lam var lo hi lap s with ⟨x | x, t⟩
    · rw [Memo.RepRadial_Prod, st_bind_error hp] at h
      cases h
    · rw [Memo.RepRadial_Prod, st_bind_ok hp] at h
      have h' : ((.ok x, (clear clearedByProd t).2) : Py ARef × HState) = (.ok r, s') := h
      obtain ⟨-, rfl⟩ := Prod.mk.injEq _ _ _ _ ▸ h'
      cases k <;> simp_all [clear, clearedByProd]
  · intro op anorm lam var lo hi lap h k r' hk
    rcases hp : LC_common la op anorm lam var lo hi lap s with ⟨x | x, t⟩
    · rw [Memo.RepRadial_LC, st_bind_error hp] at h
      cases h
    · rw [Memo.RepRadial_LC, st_bind_ok hp] at h
      have h' : ((.ok x, (clear clearedByLC t).2) : Py ARef × HState) = (.ok r, s') := h
      obtain ⟨-, rfl⟩ := Prod.mk.injEq _ _ _ _ ▸ h'
      cases k <;> simp_all [clear, clearedByLC]

open Classical in
/-- **C118**, the limit: an array that `RepRadial_Prod` returns may be the one that a table holds.  A caller who changes
it changes what `RepRadial_Prod_rem` returns from then on. -/
theorem C118_shared {la : LinAlg} : ∃ s r s', History la s [] ∧
    Memo.RepRadial_Prod la [] 1 1 0 0 0 0 s = (.ok r, s') ∧
    memoResult ((Key.prod [] 1 1 0 0 0 0).call la) (change r (Arr.smul 2) s').2 ≠
      unmemoised la (.prod [] 1 1 0 0 0 0) := by
  have hplan : RepRadial_Prod_plan [] 0 = .ok ([], []) := by decide
  have h1 : ¬(1 : ℝ) ≤ 0 := by norm_num
  have h2 : ¬(1 : ℝ) + ((0 : Int) : ℝ) ≤ 0 := by norm_num
  have hv : unmemoised la (.prod [] 1 1 0 0 0 0) = .ok (Arr.eye 1) := by
    simp only [unmemoised, RepRadialProd, Acm.RepRadial_Prod, h1, h2, if_false, hplan]
    rfl
  let sh : Key := .shfs [] 1 1 [] 0 0
  let k : Key := .prod [] 1 1 0 0 0 0
  have hp : ∀ s, Prod_common la [] 1 1 0 0 0 0 s = memo sh (alloc (Arr.eye 1)) s := by
    intro s
    simp only [Prod_common, h1, h2, if_false, hplan]
    rw [st_lift_ok]
    simp only [if_true]
    rw [st_bind]
    rcases hm : memo sh (alloc (Arr.eye 1)) s with ⟨x | x, t⟩
    · have : Memo.RepRadialshfs_Prod la 1 (0 - min 0 0) (0 + 0) [] 1 [] s = (.error x, t) := hm
      rw [this]
    · have : Memo.RepRadialshfs_Prod la 1 (0 - min 0 0) (0 + 0) [] 1 [] s = (.ok x, t) := hm
      rw [this]
      rfl
  let r : ARef := ⟨0, []⟩
  let s1 : HState := ⟨[Arr.eye 1], fun k' => if k' = sh then some r else none⟩
  let s2 : HState := ⟨[Arr.eye 1], fun k' => if k' = k then some r else s1.tab k'⟩
  have hb : memo sh (alloc (Arr.eye 1)) HState.init = (.ok r, s1) := rfl
  have hk : k.call la HState.init = (.ok r, s2) := by
    show memo k (Prod_common la [] 1 1 0 0 0 0) HState.init = _
    unfold memo
    rw [hp, hb]
    rfl
  have hne : sh ≠ k := by simp [sh, k]
  have ht : s2.tab sh = some r := by simp [s2, s1, hne]
  have hr : Memo.RepRadial_Prod la [] 1 1 0 0 0 0 s2 = (.ok r, (clear clearedByProd s2).2) := by
    have : Prod_common la [] 1 1 0 0 0 0 s2 = (.ok r, s2) := by
      rw [hp]
      unfold memo
      rw [ht]
    rw [Memo.RepRadial_Prod, st_bind_ok this]
    rfl
  refine ⟨s2, r, _, by have := History.call (la := la) (k := k) History.init; rwa [hk] at this, hr, ?_⟩
  rw [hv]
  have hf : k.call la (change r (Arr.smul 2) (clear clearedByProd s2).2).2 =
      (.ok r, (change r (Arr.smul 2) (clear clearedByProd s2).2).2) := by
    show memo k _ _ = _
    have : (change r (Arr.smul 2) (clear clearedByProd s2).2).2.tab k = some r := by
      simp [change, clear, s2, k, clearedByProd]
    unfold memo
    rw [this]
  intro h
  rw [memoResult, hf] at h
  have h' : Arr.smul 2 (Arr.eye 1) = Arr.eye 1 := by injection h
  have h3 := congrArg (fun A : Arr => A.e 0 0) h'
  simp [Arr.smul, Arr.eye, Arr.of] at h3

end Acm.Props
