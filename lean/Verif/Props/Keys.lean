import Verif.Spec.Keys

/-!
# C127: the memo table of `RepRadialshfs_Prod` is keyed by the operators themselves
-/

namespace Acm.Props

open Acm.Spec

/-- C127: `==` of two operators holds exactly if they are of the same class and have the same numbers. -/
theorem C127_equal (x y : KTSOp) : x.pyEq y = true ↔ x = y := by
  cases x <;> cases y <;> simp [KTSOp.pyEq]

theorem tupEq_iff {α : Type} {eq : α → α → Bool} (h : ∀ x y, eq x y = true ↔ x = y) : ∀ xs ys : List α, tupEq eq xs ys = true ↔ xs = ys
  | [], [] => by simp [tupEq]
  | [], _ :: _ => by simp [tupEq]
  | _ :: _, [] => by simp [tupEq]
  | x :: xs, y :: ys => by simp [tupEq, h, tupEq_iff h xs ys]

/-- C127: the arguments of two calls are equal exactly if all of them are the same; in particular the products have the same length. -/
theorem C127_arguments (a b : ShfsArgs) : a.pyEq b = true ↔ a = b := by
  obtain ⟨o, n, l, s, i, j⟩ := a
  obtain ⟨o', n', l', s', i', j'⟩ := b
  simp only [ShfsArgs.pyEq, Bool.and_eq_true, tupEq_iff C127_equal, tupEq_iff (eq := fun x y : Int => x == y) (fun x y => by simp),
    decide_eq_true_eq, beq_iff_eq, ShfsArgs.mk.injEq, and_assoc]

/-- C127: equal operators, and equal arguments, have the same hash value, whatever Python's hash functions are. -/
theorem C127_hash (H : PyHash) : (∀ x y : KTSOp, x.pyEq y = true → x.pyHash H = y.pyHash H) ∧
    ∀ a b : ShfsArgs, a.pyEq b = true → a.pyHash H = b.pyHash H :=
  ⟨fun x y h => by rw [(C127_equal x y).1 h], fun a b h => by rw [(C127_arguments a b).1 h]⟩

/-- C127: an object is made exactly for the allowed numbers; otherwise ValueError is raised. -/
theorem C127_new (K T S : Int) : (KTOp.new K T = if 0 ≤ T then .ok (.KT K T) else .error .valueError) ∧
    (SOp.new S = if S = -1 ∨ S = 0 ∨ S = 1 then .ok (.S S) else .error .valueError) := by
  constructor
  · unfold KTOp.new require_nonnegint
    by_cases h : 0 ≤ T
    · rw [if_neg (by omega), if_pos h]; rfl
    · rw [if_pos (by omega), if_neg h]; rfl
  · unfold SOp.new
    by_cases h : S = -1 ∨ S = 0 ∨ S = 1
    · rw [if_pos h, if_pos (by simpa using h)]; rfl
    · rw [if_neg h, if_neg (by simpa using h)]; rfl

section
variable {κ β : Type} {I : DictImpl κ β} {eq : κ → κ → Bool} {hash : κ → Int} {f : κ → Py β}

/-- What the dict contains: results of the function, under the hash values of their keys. -/
def Sound (hash : κ → Int) (f : κ → Py β) (d : List (Entry κ β)) : Prop := ∀ e ∈ d, e.hash = hash e.key ∧ f e.key = .ok e.val

theorem get_sound (hI : DictOk I) (he : ∀ x y, eq x y = true ↔ x = y) {d : List (Entry κ β)} (hd : Sound hash f d) (k : κ) :
    (∀ v, I.get eq hash d k = some v → f k = .ok v) ∧ (I.get eq hash d k = none ↔ ∀ e ∈ d, e.key ≠ k) := by
  obtain ⟨i1, i2⟩ := hI (hash k) d
  unfold DictImpl.get
  refine ⟨fun v hv => ?_, ?_⟩
  · obtain ⟨e, h1, h2⟩ := Option.map_eq_some_iff.1 hv
    have h3 := List.find?_some h1
    have h4 := List.mem_of_find?_eq_some h1
    simp only [Bool.and_eq_true, beq_iff_eq, he] at h3
    rw [← h3.2, (hd e (i1 e h4)).2, h2]
  · rw [Option.map_eq_none_iff, List.find?_eq_none]
    constructor
    · rintro h e hm rfl
      exact h e (i2 e hm (hd e hm).1) (by simp [he, (hd e hm).1])
    · intro h e hm hh
      simp only [Bool.and_eq_true, he] at hh
      exact h e (i1 e hm) hh.2

open Classical in
theorem call_step (hI : DictOk I) (he : ∀ x y, eq x y = true ↔ x = y) {s : List (Entry κ β) × List κ} (hd : Sound hash f s.1) (k : κ) :
    (cacheCall I eq hash f k s).1 = f k ∧ Sound hash f (cacheCall I eq hash f k s).2.1 ∧
      (∀ k', (∃ e ∈ (cacheCall I eq hash f k s).2.1, e.key = k') ↔ (∃ e ∈ s.1, e.key = k') ∨ k' = k ∧ ∃ v, f k = .ok v) ∧
      (cacheCall I eq hash f k s).2.2 = if ∃ e ∈ s.1, e.key = k then s.2 else s.2 ++ [k] := by
  obtain ⟨g1, g2⟩ := get_sound hI he hd k
  unfold cacheCall
  cases hg : I.get eq hash s.1 k with
  | some v =>
    have hk : ∃ e ∈ s.1, e.key = k := by
      by_contra hn
      push Not at hn
      rw [g2.2 hn] at hg
      cases hg
    refine ⟨(g1 v hg).symm, hd, fun k' => ⟨.inl, ?_⟩, by rw [if_pos hk]⟩
    rintro (h | ⟨rfl, _⟩)
    · exact h
    · exact hk
  | none =>
    have hk : ¬ ∃ e ∈ s.1, e.key = k := by
      have := g2.1 hg
      push Not
      exact this
    cases hf : f k with
    | ok v =>
      refine ⟨rfl, ?_, fun k' => ?_, by rw [if_neg hk]⟩
      · intro e hm
        rcases List.mem_append.1 hm with h | h
        · exact hd e h
        · rw [List.mem_singleton.1 h]
          exact ⟨rfl, hf⟩
      · constructor
        · rintro ⟨e, hm, rfl⟩
          rcases List.mem_append.1 hm with h | h
          · exact .inl ⟨e, h, rfl⟩
          · rw [List.mem_singleton.1 h]
            exact .inr ⟨rfl, v, rfl⟩
        · rintro (⟨e, hm, rfl⟩ | ⟨rfl, _⟩)
          · exact ⟨e, List.mem_append_left _ hm, rfl⟩
          · exact ⟨_, List.mem_append_right _ (List.mem_singleton_self _), rfl⟩
    | error e =>
      refine ⟨rfl, hd, fun k' => ⟨.inl, ?_⟩, by rw [if_neg hk]⟩
      rintro (h | ⟨_, v, h⟩)
      · exact h
      · cases h

open Classical in
theorem calls_run (hI : DictOk I) (he : ∀ x y, eq x y = true ↔ x = y) : ∀ (ks : List κ) (s : List (Entry κ β) × List κ),
    Sound hash f s.1 → (cacheCalls I eq hash f ks s).1 = ks.map f ∧ Sound hash f (cacheCalls I eq hash f ks s).2.1 ∧
      (∀ k, (∃ e ∈ (cacheCalls I eq hash f ks s).2.1, e.key = k) ↔ (∃ e ∈ s.1, e.key = k) ∨ k ∈ ks ∧ ∃ v, f k = .ok v) ∧
      ∀ k, (cacheCalls I eq hash f ks s).2.2.count k =
        s.2.count k + if ∃ e ∈ s.1, e.key = k then 0 else computations f ks k := by
  intro ks
  induction ks with
  | nil =>
    intro s hs
    refine ⟨rfl, hs, fun k => by simp [cacheCalls], fun k => ?_⟩
    have : computations f [] k = 0 := by unfold computations; cases f k <;> simp
    rw [this, ite_self]
    rfl
  | cons k ks ih =>
    intro s hs
    obtain ⟨a1, a2, a3, a4⟩ := call_step hI he hs k
    obtain ⟨b1, b2, b3, b4⟩ := ih _ a2
    refine ⟨by rw [cacheCalls, List.map_cons]; dsimp only; rw [a1, b1], b2, fun k' => ?_, fun k' => ?_⟩
    · refine (b3 k').trans ?_
      rw [a3, List.mem_cons]
      constructor
      · rintro ((h | ⟨rfl, h⟩) | ⟨h1, h2⟩)
        · exact .inl h
        · exact .inr ⟨.inl rfl, h⟩
        · exact .inr ⟨.inr h1, h2⟩
      · rintro (h | ⟨rfl | h1, h2⟩)
        · exact .inl (.inl h)
        · exact .inl (.inr ⟨rfl, h2⟩)
        · exact .inr ⟨h1, h2⟩
    · refine (b4 k').trans ?_
      rw [a4]
      by_cases hk : ∃ e ∈ s.1, e.key = k
      · rw [if_pos hk]
        by_cases hk' : ∃ e ∈ s.1, e.key = k'
        · rw [if_pos ((a3 k').2 (.inl hk')), if_pos hk']
        · have hne : k' ≠ k := fun h => hk' (h ▸ hk)
          have hc : computations f (k :: ks) k' = computations f ks k' := by
            unfold computations
            rw [List.count_cons_of_ne hne.symm]
          rw [if_neg hk', hc, if_neg]
          rw [a3]
          rintro (h | ⟨h, _⟩)
          · exact hk' h
          · exact hne h
      · rw [if_neg hk, List.count_append]
        by_cases hne : k' = k
        · subst hne
          rw [if_neg hk, List.count_singleton_self]
          cases hf : f k' with
          | ok v =>
            rw [if_pos ((a3 k').2 (.inr ⟨rfl, v, hf⟩))]
            unfold computations
            rw [hf]
            simp only [List.count_cons_self]
            omega
          | error e =>
            rw [if_neg (by rw [a3]; rintro (h | ⟨_, v, h⟩); exacts [hk h, by rw [hf] at h; cases h])]
            unfold computations
            rw [hf]
            simp only [List.count_cons_self]
            omega
        · have hc : computations f (k :: ks) k' = computations f ks k' := by
            unfold computations
            rw [List.count_cons_of_ne (Ne.symm hne)]
          rw [hc, List.count_singleton, if_neg (by simpa using fun h => hne h.symm)]
          have : (∃ e ∈ (cacheCall I eq hash f k s).2.1, e.key = k') ↔ ∃ e ∈ s.1, e.key = k' := by
            rw [a3]
            exact ⟨fun h => h.elim id fun h => absurd h.1 hne, .inl⟩
          simp only [this, add_zero]

end

open Classical in
/-- C127: whatever Python's hash functions are (even if all hash values collide) and in whatever order the dict inspects its entries, a
series of calls of the cached function returns, call by call, what the function itself returns or raises; the function is
computed once for all calls with the same arguments, unless it raises; and afterwards the dict has, for any arguments, the result if
they have been used in a call that returned, and nothing otherwise. -/
theorem C127_calls {β : Type} {I : DictImpl ShfsArgs β} (hI : DictOk I) (H : PyHash) (f : ShfsArgs → Py β) (ks : List ShfsArgs) :
    (cacheCalls I ShfsArgs.pyEq (ShfsArgs.pyHash H) f ks ([], [])).1 = ks.map f ∧
    (∀ k, (cacheCalls I ShfsArgs.pyEq (ShfsArgs.pyHash H) f ks ([], [])).2.2.count k = computations f ks k) ∧
    ∀ k v, I.get ShfsArgs.pyEq (ShfsArgs.pyHash H) (cacheCalls I ShfsArgs.pyEq (ShfsArgs.pyHash H) f ks ([], [])).2.1 k = some v ↔
      k ∈ ks ∧ f k = .ok v := by
  have h0 : Sound (ShfsArgs.pyHash H) f (([], []) : List (Entry ShfsArgs β) × List ShfsArgs).1 := fun e he => by cases he
  obtain ⟨h1, h2, h3, h4⟩ := calls_run hI C127_arguments ks ([], []) h0
  refine ⟨h1, fun k => ?_, fun k v => ?_⟩
  · rw [h4 k, if_neg (by rintro ⟨e, he, _⟩; cases he), List.count_nil, Nat.zero_add]
  · obtain ⟨g1, g2⟩ := get_sound hI C127_arguments h2 k
    have h3 := h3 k
    constructor
    · intro hv
      refine ⟨?_, g1 v hv⟩
      by_contra hk
      have : ¬ ∃ e ∈ (cacheCalls I ShfsArgs.pyEq (ShfsArgs.pyHash H) f ks ([], [])).2.1, e.key = k := by
        rw [h3]
        rintro (⟨e, he, _⟩ | ⟨h, _⟩)
        · cases he
        · exact hk h
      rw [g2.2 (by push Not at this; exact this)] at hv
      cases hv
    · rintro ⟨hk, hv⟩
      obtain ⟨e, he, rfl⟩ := h3.2 (.inr ⟨hk, v, hv⟩)
      cases hg : I.get ShfsArgs.pyEq (ShfsArgs.pyHash H) (cacheCalls I ShfsArgs.pyEq (ShfsArgs.pyHash H) f ks ([], [])).2.1 e.key with
      | none => exact absurd rfl (g2.1 hg e he)
      | some w =>
        have := g1 w hg
        rw [hv] at this
        injection this with this
        rw [this]

/-- A dict that inspects all its entries from the last to the first. -/
example : DictOk (⟨fun _ d => d.reverse⟩ : DictImpl ShfsArgs ℕ) := fun h d => ⟨by simp, fun e he _ => by simpa using he⟩

open Classical in
-- With hash functions that are constant the operators S and [0, 0] collide, and calls with them are still told apart: the second is
-- not answered from the entry of the first, the third is.
example : ∃ (H : PyHash) (a b : ShfsArgs) (I : DictImpl ShfsArgs ℕ) (f : ShfsArgs → Py ℕ), DictOk I ∧ a.pyHash H = b.pyHash H ∧ a ≠ b ∧
    (cacheCalls I ShfsArgs.pyEq (ShfsArgs.pyHash H) f [a, b, a] ([], [])).1 = [.ok 1, .ok 2, .ok 1] ∧
    (cacheCalls I ShfsArgs.pyEq (ShfsArgs.pyHash H) f [a, b, a] ([], [])).2.2.count a = 1 := by
  let a : ShfsArgs := ⟨[.S 0], 1, 5 / 2, [0], 0, 3⟩
  let b : ShfsArgs := ⟨[.KT 0 0], 1, 5 / 2, [0], 0, 3⟩
  have hne : a ≠ b := by simp [a, b]
  let I : DictImpl ShfsArgs ℕ := ⟨fun _ d => d.reverse⟩
  have hI : DictOk I := fun h d => ⟨by simp [I], fun e he _ => by simpa [I] using he⟩
  obtain ⟨h1, h2, _⟩ := C127_calls hI ⟨fun _ => 0, fun _ => 0, fun _ => 0⟩ (fun k => if k = a then .ok 1 else .ok 2) [a, b, a]
  refine ⟨⟨fun _ => 0, fun _ => 0, fun _ => 0⟩, a, b, I, fun k => if k = a then .ok 1 else .ok 2, hI, rfl, hne, ?_, ?_⟩
  · rw [h1]
    simp [hne.symm]
  · refine (h2 a).trans ?_
    simp [computations]

end Acm.Props
