import Verif.Model.ShowFile
import Verif.Props.CGData
import Verif.Props.MessagesText

/-! Property C124: what `show_CG_file` prints are the coefficients that are used. -/

namespace Acm.Props

open Acm Acm.Spec

theorem text_count (flt : ℝ → List Char) (n : ℕ) (b : Bool) : CGPrint.text flt (.count n b) = "This file contains ".toList ++ pyStr n ++
    (if b then " CG coefficients".toList else " CG coefficient".toList) ++ ['\n'] := rfl

theorem text_entry (flt : ℝ → List Char) (l : Quartet) (x : ℝ) : CGPrint.text flt (.entry l x) =
    (Msg.tupleText [l.1, l.2.1, l.2.2.1, l.2.2.2] ++ ", ".toList) ++ (flt x ++ ['\n']) := List.append_assoc _ _ _

theorem show_text_eq (flt : ℝ → List Char) (fs : FileSys) (s : CGState) (v1 v2 a2 L2 v3 : ℕ) (ht : Triangle v1 v2 v3)
    (he : Even (v1 + v2 + v3)) (hv : v1 ≤ v3) (ha : IsState v2 a2 L2) (path : List Char)
    (hp : SO5CG_filename fs s (v1, v2, a2, L2, v3) = .ok path) (xs : List ℝ)
    (hf : fs.readdata path = some xs) (labels : List Quartet) (hl : CGLines v1 L2 v3 labels) :
    (show_CG_text flt fs (v1, v2, a2, L2, v3) s).1 = .ok ("This file contains ".toList ++ dec xs.length ++
      (if xs.length = 1 then " CG coefficient".toList else " CG coefficients".toList) ++ "\n".toList ++
      (labels.zip xs).flatMap fun x => CGPrint.text flt (.entry x.1 x.2)) := by
  obtain ⟨out, h1, h2, h3, -⟩ := C80_show fs s v1 v2 a2 L2 v3 ht he hv ha path hp xs hf labels hl
  have ho : out = (labels.zip xs).map fun x => CGPrint.entry x.1 x.2 := by
    refine List.ext_getElem (by rw [h2]; simp [min_comm]) fun i hi hi' => ?_
    have hl' : i < labels.length ∧ i < xs.length := by
      rw [List.length_map, List.length_zip] at hi'; omega
    have := h3 i xs[i] labels[i] (List.getElem?_eq_getElem _) (List.getElem?_eq_getElem _)
    rw [List.getElem?_eq_getElem hi] at this
    simpa using this
  unfold show_CG_text
  rw [st_bind]
  rcases hr : show_CG_file fs ((v1 : Int), (v2 : Int), (a2 : Int), (L2 : Int), (v3 : Int)) s with ⟨r, s'⟩
  rw [hr] at h1
  obtain rfl : r = _ := h1
  show Except.ok _ = _
  rw [List.flatMap_cons, ho, List.flatMap_map]
  refine congrArg Except.ok (congrArg₂ (· ++ ·) ?_ rfl)
  rw [text_count, pyStr_eq_dec]
  by_cases h : xs.length = 1
  · rw [if_pos h, if_neg (by simp [h])]; rfl
  · rw [if_neg h, if_pos (by simp [h])]; rfl

/-- C124.  `show_CG_file` prints the number of coefficients, and for each label in the documented order the coefficient that `CG_SO5r3` returns
for it after any calls, if the data file has one number for each label. -/
theorem C124_values_partial (flt : ℝ → List Char) (fs : FileSys) (dir : Option (List Char)) (cs cs' : List CGCall) (v1 v2 a2 L2 v3 : ℕ)
    (ht : Triangle v1 v2 v3) (he : Even (v1 + v2 + v3)) (hv : v1 ≤ v3) (ha : IsState v2 a2 L2) (h2 : 0 < v2) (path : List Char)
    (hp : SO5CG_filename fs (CGState.start dir) (v1, v2, a2, L2, v3) = .ok path) (xs : List ℝ) (hf : fs.readdata path = some xs)
    (labels : List Quartet) (hl : CGLines v1 L2 v3 labels) (hn : labels.length = xs.length) : ∃ c : Quartet → ℝ,
    (∀ a1 L1 a3 L3 : ℕ, ((a1 : Int), (L1 : Int), (a3 : Int), (L3 : Int)) ∈ labels →
      (CG_SO5r3 fs (v1, a1, L1) (v2, a2, L2) (v3, a3, L3) (runCGCalls fs cs' (CGState.start dir))).1 = .ok (c (a1, L1, a3, L3))) ∧
    (show_CG_text flt fs (v1, v2, a2, L2, v3) (runCGCalls fs cs (CGState.start dir))).1 = .ok ("This file contains ".toList ++
      dec labels.length ++ (if labels.length = 1 then " CG coefficient".toList else " CG coefficients".toList) ++ "\n".toList ++
      labels.flatMap fun l => "(".toList ++ dec l.1 ++ ", ".toList ++ dec l.2.1 ++ ", ".toList ++ dec l.2.2.1 ++ ", ".toList ++
        dec l.2.2.2 ++ "), ".toList ++ flt (c l) ++ "\n".toList) := by
  have hnd : labels.Nodup := by
    obtain rfl : labels = cgLabels v1 L2 v3 := cgLines_unique hl (cgLines_cgLabels v1 L2 v3)
    exact cgLabels_nodup _ _ _
  have hb := (runCGCalls_inv fs cs (cgInv_start fs dir)).2
  have hz : labels.zip xs = labels.map fun l => (l, (xs[labels.idxOf l]?).getD 0) := by
    refine List.ext_getElem (by simp [hn]) fun i hi hi' => ?_
    have h1 : i < labels.length ∧ i < xs.length := by rw [List.length_zip] at hi; omega
    rw [List.getElem_zip, List.getElem_map, hnd.idxOf_getElem i h1.1, List.getElem?_eq_getElem h1.2]
    rfl
  refine ⟨fun l => (xs[labels.idxOf l]?).getD 0, ?_, ?_⟩
  · intro a1 L1 a3 L3 hm
    obtain ⟨a1', L1', a3', L3', e, s1, s3, t2⟩ := (hl.1 _).1 hm
    simp only [Prod.mk.injEq, Nat.cast_inj] at e
    obtain ⟨rfl, rfl, rfl, rfl⟩ := e
    obtain ⟨i, x, e1, e2, e3⟩ := C52_lookup fs dir cs' v1 a1 L1 v2 a2 L2 v3 a3 L3 ⟨ht, t2, he, s1, ha, s3⟩ hv h2 xs path hp hf labels hl hn.le
    obtain ⟨hi, e1'⟩ := List.getElem?_eq_some_iff.1 e1
    have : labels.idxOf ((a1 : Int), (L1 : Int), (a3 : Int), (L3 : Int)) = i := by rw [← e1', hnd.idxOf_getElem i hi]
    rw [e3]
    show _ = Except.ok ((xs[labels.idxOf ((a1 : Int), (L1 : Int), (a3 : Int), (L3 : Int))]?).getD 0)
    rw [this, e2]
    rfl
  · have hp' : SO5CG_filename fs (runCGCalls fs cs (CGState.start dir)) ((v1 : Int), (v2 : Int), (a2 : Int), (L2 : Int), (v3 : Int)) = .ok path := by
      rw [← hp]
      unfold SO5CG_filename get_base_directory
      rw [hb]
    rw [show_text_eq flt fs _ v1 v2 a2 L2 v3 ht he hv ha path hp' xs hf labels hl, hz, List.flatMap_map, hn]
    refine congrArg Except.ok (congrArg₂ (· ++ ·) rfl (List.flatMap_congr fun l _ => ?_))
    rw [text_entry]
    simp [Msg.tupleText, pyStr_eq_dec, List.intercalate_cons_cons]

/-- A file system in which every data file holds two numbers. -/
noncomputable def twoFS : FileSys := ⟨fun _ => some [1 / 2, 1], []⟩

example : ∃ path, SO5CG_filename twoFS (CGState.start none) ((1 : ℕ), (1 : ℕ), (1 : ℕ), (2 : ℕ), (2 : ℕ)) = .ok path ∧
    twoFS.readdata path = some [1 / 2, 1] ∧ Triangle 1 1 2 ∧ Even (1 + 1 + 2) ∧ IsState 1 1 2 ∧
    CGLines 1 2 2 [(1, 2, 1, 2), (1, 2, 1, 4)] :=
  ⟨_, rfl, rfl, by unfold Triangle; decide, by decide, by unfold IsState; decide +kernel,
    (show cgLabels (1 : ℕ) (2 : ℕ) (2 : ℕ) = [(1, 2, 1, 2), (1, 2, 1, 4)] by decide +kernel) ▸ cgLines_cgLabels 1 2 2⟩

/-- C124.  From what is printed for given labels one can read the numbers of the file, if it has no more of them than there are labels and its
different numbers have different texts (there are more reals than texts, so this is asked of the numbers of the two files only). -/
theorem C124_read (flt : ℝ → List Char) (hnl : ∀ x, '\n' ∉ flt x) (fs fs' : FileSys) (s s' : CGState)
    (v1 v2 a2 L2 v3 : ℕ) (ht : Triangle v1 v2 v3) (he : Even (v1 + v2 + v3)) (hv : v1 ≤ v3) (ha : IsState v2 a2 L2) (path path' : List Char)
    (hp : SO5CG_filename fs s (v1, v2, a2, L2, v3) = .ok path) (hp' : SO5CG_filename fs' s' (v1, v2, a2, L2, v3) = .ok path')
    (xs ys : List ℝ) (hf : fs.readdata path = some xs) (hf' : fs'.readdata path' = some ys)
    (hinj : ∀ x ∈ xs, ∀ y ∈ ys, flt x = flt y → x = y) (labels : List Quartet) (hl : CGLines v1 L2 v3 labels)
    (hx : xs.length ≤ labels.length) (hy : ys.length ≤ labels.length)
    (h : (show_CG_text flt fs (v1, v2, a2, L2, v3) s).1 = (show_CG_text flt fs' (v1, v2, a2, L2, v3) s').1) : xs = ys := by
  rw [show_text_eq flt fs s v1 v2 a2 L2 v3 ht he hv ha path hp xs hf labels hl,
    show_text_eq flt fs' s' v1 v2 a2 L2 v3 ht he hv ha path' hp' ys hf' labels hl] at h
  injection h with h
  have split : ∀ (a b x y : List Char), '\n' ∉ a → '\n' ∉ b → a ++ '\n' :: x = b ++ '\n' :: y → a = b ∧ x = y := by
    intro a b x y h1 h2 h
    have e : ∀ (a x : List Char), '\n' ∉ a → (a ++ '\n' :: x).takeWhile (fun c => c != '\n') = a := by
      intro a x h1
      rw [List.takeWhile_append_of_pos (fun d hd => by simp only [bne_iff_ne]; rintro rfl; exact h1 hd),
        List.takeWhile_cons_of_neg (by simp), List.append_nil]
    have h3 : a = b := by rw [← e a x h1, h, e b y h2]
    rw [h3] at h
    exact ⟨h3, (List.cons.inj (List.append_cancel_left h)).2⟩
  have key : ∀ (labels : List Quartet) (xs ys : List ℝ), (∀ x ∈ xs, ∀ y ∈ ys, flt x = flt y → x = y) →
      xs.length ≤ labels.length → ys.length ≤ labels.length →
      ((labels.zip xs).flatMap fun x => CGPrint.text flt (.entry x.1 x.2)) = ((labels.zip ys).flatMap fun x => CGPrint.text flt (.entry x.1 x.2)) →
      xs = ys := by
    intro labels
    induction labels with
    | nil =>
      intro xs ys _ hx hy _
      rw [List.length_eq_zero_iff.1 (Nat.le_zero.1 hx), List.length_eq_zero_iff.1 (Nat.le_zero.1 hy)]
    | cons l labels ih =>
      rintro (_ | ⟨x, xs⟩) (_ | ⟨y, ys⟩) hi hx hy h
      · rfl
      · rw [List.zip_nil_right, List.zip_cons_cons, List.flatMap_cons, text_entry] at h
        exact absurd (congrArg List.length h) (by simp)
      · rw [List.zip_nil_right, List.zip_cons_cons, List.flatMap_cons, text_entry] at h
        exact absurd (congrArg List.length h) (by simp)
      · simp only [List.zip_cons_cons, List.flatMap_cons] at h
        rw [text_entry, text_entry] at h
        simp only [List.append_assoc] at h
        have h := List.append_cancel_left (List.append_cancel_left h)
        obtain ⟨h1, h2⟩ := split _ _ _ _ (hnl x) (hnl y) h
        rw [hi _ List.mem_cons_self _ List.mem_cons_self h1,
          ih xs ys (fun x hx y hy => hi x (List.mem_cons_of_mem _ hx) y (List.mem_cons_of_mem _ hy)) (by simpa using hx) (by simpa using hy) h2]
  have e1 : ∀ xs : List ℝ, '\n' ∉ ("This file contains ".toList ++ dec xs.length ++
      (if xs.length = 1 then " CG coefficient".toList else " CG coefficients".toList)) := by
    intro xs hm
    rw [List.mem_append, List.mem_append] at hm
    rcases hm with (hm | hm) | hm
    · exact absurd hm (by decide)
    · rcases dec_chars _ _ hm with e | e
      · exact absurd e (by decide)
      · exact absurd e (by decide)
    · split at hm
      · exact absurd hm (by decide)
      · exact absurd hm (by decide)
  refine key labels xs ys hinj hx hy (split _ _ _ _ (e1 xs) (e1 ys) ?_).2
  have e2 : ∀ (a b : List Char), a ++ "\n".toList ++ b = a ++ '\n' :: b := fun a b => List.append_assoc _ _ _
  rw [e2, e2] at h
  exact h

open scoped Classical in
example : ∃ flt : ℝ → List Char, (∀ x, '\n' ∉ flt x) ∧ ∀ x ∈ [(1 / 2 : ℝ), 1], ∀ y ∈ [(1 / 2 : ℝ), -1], flt x = flt y → x = y :=
  ⟨fun x => if x = 1 / 2 then "0.5".toList else if x = 1 then "1.0".toList else "-1.0".toList,
    fun x => by dsimp only; split_ifs <;> decide,
    fun x hx y hy => by
      rcases List.mem_cons.1 hx with rfl | hx <;> rcases List.mem_cons.1 hy with rfl | hy
      · simp
      · rw [List.mem_singleton.1 hy]; norm_num; decide
      · rw [List.mem_singleton.1 hx]; norm_num; decide
      · rw [List.mem_singleton.1 hx, List.mem_singleton.1 hy]; norm_num; decide⟩

/-- C124 fails for the scalar: `show_CG_file` raises where there is no data file, although `CG_SO5r3` returns 1 for the labels. -/
theorem C124_scalar_fails (flt : ℝ → List Char) (fs : FileSys) (dir : Option (List Char)) (cs cs' : List CGCall) (v a L : ℕ) (ha : IsState v a L)
    (hf : ∀ path, fs.readdata path = none) :
    (show_CG_text flt fs (v, 0, 1, 0, v) (runCGCalls fs cs (CGState.start dir))).1 = .error .fileNotFoundError ∧
    (CG_SO5r3 fs (v, a, L) (0, 1, 0) (v, a, L) (runCGCalls fs cs' (CGState.start dir))).1 = .ok 1 := by
  refine ⟨?_, (C55_exact fs dir cs' v a a L ha ha).1⟩
  generalize runCGCalls fs cs (CGState.start dir) = s
  have hq : QuintetOk ((v : Int), (0 : Int), (1 : Int), (0 : Int), (v : Int)) := ⟨by simp, by simp, by simp, by simp, by simp⟩
  have hg : get_CG_file fs ((v : Int), (0 : Int), (1 : Int), (0 : Int), (v : Int)) s = (.error .fileNotFoundError, s) := by
    unfold get_CG_file
    simp only
    rw [require_SO5Quintet_ok hq, st_lift_ok, dimSO5r3_ok, st_lift_ok, if_neg]
    · unfold SO5CG_filename
      rw [require_SO5Quintet_ok hq, py_bind_ok]
      show (readdata_float fs _ >>= _) s = _
      rw [st_bind]
      unfold readdata_float
      rw [hf]
    · have hd : dimV 0 0 = 1 := by decide +kernel
      simp only [is_odd_iff, hd]
      omega
  unfold show_CG_text show_CG_file
  rw [st_bind, require_SO5Quintet_ok hq, st_lift_ok, st_bind, hg]

example : (∀ path, (⟨fun _ => none, []⟩ : FileSys).readdata path = none) ∧ IsState 2 1 4 := ⟨fun _ => rfl, by unfold IsState; decide +kernel⟩

/-- C124 fails for data files with too many numbers: fewer are printed than are announced. -/
theorem C124_count_fails (flt : ℝ → List Char) (hnl : ∀ x, '\n' ∉ flt x) (fs : FileSys) (s : CGState) (v1 v2 a2 L2 v3 : ℕ) (ht : Triangle v1 v2 v3)
    (he : Even (v1 + v2 + v3)) (hv : v1 ≤ v3) (ha : IsState v2 a2 L2) (path : List Char)
    (hp : SO5CG_filename fs s (v1, v2, a2, L2, v3) = .ok path) (xs : List ℝ) (hf : fs.readdata path = some xs) (labels : List Quartet)
    (hl : CGLines v1 L2 v3 labels) (hn : labels.length < xs.length) : ∃ lines : List Char,
    (show_CG_text flt fs (v1, v2, a2, L2, v3) s).1 = .ok ("This file contains ".toList ++ dec xs.length ++
      (if xs.length = 1 then " CG coefficient".toList else " CG coefficients".toList) ++ "\n".toList ++ lines) ∧
    lines.count '\n' = labels.length ∧ lines.count '\n' < xs.length := by
  have key : ∀ (labels : List Quartet) (xs : List ℝ), labels.length ≤ xs.length →
      ((labels.zip xs).flatMap fun x => CGPrint.text flt (.entry x.1 x.2)).count '\n' = labels.length := by
    intro labels
    induction labels with
    | nil => intro xs _; rfl
    | cons l labels ih =>
      rintro (_ | ⟨x, xs⟩) h
      · simp at h
      · rw [List.zip_cons_cons, List.flatMap_cons, List.count_append, ih xs (by simpa using h), text_entry]
        have ht : '\n' ∉ Msg.tupleText [l.1, l.2.1, l.2.2.1, l.2.2.2] ++ ", ".toList := by
          have hd : ∀ n : Int, '\n' ∉ dec n := fun n hm => by rcases dec_chars _ _ hm with e | e <;> exact absurd e (by decide)
          simp [Msg.tupleText, List.intercalate_cons_cons, pyStr_eq_dec, hd]
        show (_ ++ (flt x ++ _)).count '\n' + _ = _
        rw [List.count_append, List.count_eq_zero_of_not_mem ht, List.count_append, List.count_eq_zero_of_not_mem (hnl x), List.length_cons]
        simp only [List.count_singleton_self]
        omega
  refine ⟨_, show_text_eq flt fs s v1 v2 a2 L2 v3 ht he hv ha path hp xs hf labels hl, key labels xs hn.le, ?_⟩
  rw [key labels xs hn.le]
  exact hn

example : ∃ path, SO5CG_filename exampleFS (CGState.start none) ((1 : ℕ), (1 : ℕ), (1 : ℕ), (2 : ℕ), (2 : ℕ)) = .ok path ∧
    exampleFS.readdata path = some (List.replicate 100 0) ∧ (cgLabels (1 : ℕ) (2 : ℕ) (2 : ℕ)).length < (List.replicate 100 (0 : ℝ)).length :=
  ⟨_, rfl, rfl, by rw [List.length_replicate, show (cgLabels (1 : ℕ) (2 : ℕ) (2 : ℕ)).length = 2 by decide +kernel]; decide⟩

end Acm.Props
