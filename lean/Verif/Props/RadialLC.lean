import Verif.Props.Radial
import Verif.Lemmas.CGData
import Verif.Lemmas.FullWitness
import Verif.Lemmas.RadialDtype
import Verif.Lemmas.RadialSingle
import Mathlib.Tactic.Ring

/-!
# Linear combinations of radial operators: C81
-/

namespace Acm.Props

open Acm Acm.Spec

/-- `∑ cᵢ xᵢ`. -/
def lincomb : List ℝ → List ℝ → ℝ
  | c :: cs, x :: xs => c * x + lincomb cs xs
  | _, _ => 0

theorem square_smul {n : ℕ} {P : Arr} (h : Square n P) (c : ℝ) :
    Square n (P.smul c) ∧ ∀ i j, (P.smul c).e i j = c * P.e i j := by
  obtain ⟨h1, h2, h3⟩ := h
  refine ⟨⟨h1, h2, fun i j hij => ?_⟩, fun i j => ?_⟩
  · simp [Arr.smul, Arr.of, h1, h2, hij]
  · simp only [Arr.smul, Arr.of, h1, h2]
    split_ifs with h
    · ring
    · rw [h3 i j h]; ring

theorem square_add {n : ℕ} {P Q : Arr} (h : Square n P) (hQ : Square n Q) :
    Square n (P.add Q) ∧ ∀ i j, (P.add Q).e i j = P.e i j + Q.e i j := by
  obtain ⟨h1, h2, h3⟩ := h
  refine ⟨⟨h1, h2, fun i j hij => ?_⟩, fun i j => ?_⟩
  · simp [Arr.add, Arr.of, h1, h2, hij]
  · simp only [Arr.add, Arr.of, h1, h2]
    split_ifs with h
    · rfl
    · rw [h3 i j h, hQ.2.2 i j h]; ring

section
variable {la : LinAlg} {anorm lam : ℝ} {lambda_var lo hi lap : Int}

/-- `M += P` for every product `P` of the list, if `M` has this `dtype`. -/
def LCTypes (lam : ℝ) (lambda_var lo hi lap : Int) (d : Dtype) (rest : List (ℝ × List RadSym)) : Prop :=
  d = .object ∨ ∀ t ∈ rest, RepRadialProd_dtype t.2 lam lambda_var lo hi lap ≠ .ok .object

theorem LC_loop_ok {d : Dtype} {rest : List (ℝ × List RadSym)} {Ps : List Arr}
    (h : List.Forall₂ (fun t P => RepRadialProd la anorm t.2 lam lambda_var lo hi lap = .ok P) rest Ps)
    {n : ℕ} : ∀ (M : Arr), Square n M → (∀ P ∈ Ps, Square n P) → LCTypes lam lambda_var lo hi lap d rest →
    ∃ M', RepRadial_LC_loop la anorm lam lambda_var lo hi lap d rest M = .ok M' ∧ Square n M' ∧
      ∀ i j, M'.e i j = M.e i j + lincomb (rest.map Prod.fst) (Ps.map fun P => P.e i j) := by
  induction h with
  | nil => intro M hM _ _; exact ⟨M, rfl, hM, fun i j => by simp [lincomb]⟩
  | @cons t P rest Ps hP _ ih =>
    intro M hM hPs hd
    have hP1 := square_smul (hPs P (by simp)) t.1
    have hM1 := square_add hM hP1.1
    obtain ⟨M', e, hs, hv⟩ := ih (M.add (P.smul t.1)) hM1.1 (fun Q hQ => hPs Q (by simp [hQ]))
      (hd.imp_right fun h u hu => h u (by simp [hu]))
    obtain ⟨dP, e1, -⟩ := dtype_ok hP
    have hc : iaddCheck d dP = .ok () := by
      rcases hd with rfl | hd
      · cases dP <;> rfl
      · have := hd t (by simp)
        rw [e1] at this
        cases dP
        · cases d <;> rfl
        · exact absurd rfl this
    obtain ⟨c, op⟩ := t
    refine ⟨M', ?_, hs, fun i j => ?_⟩
    · rw [RepRadial_LC_loop, hP, py_bind_ok, e1, py_bind_ok, hc, py_bind_ok]; exact e
    · rw [hv i j, hM1.2, hP1.2]
      simp only [List.map_cons, lincomb]
      ring

theorem LC_loop_inv {d : Dtype} {rest : List (ℝ × List RadSym)} : ∀ {M M' : Arr},
    RepRadial_LC_loop la anorm lam lambda_var lo hi lap d rest M = .ok M' →
    (∃ Ps, List.Forall₂ (fun t P => RepRadialProd la anorm t.2 lam lambda_var lo hi lap = .ok P) rest Ps) ∧
      LCTypes lam lambda_var lo hi lap d rest := by
  induction rest with
  | nil => intro _ _ _; exact ⟨⟨[], .nil⟩, .inr (by simp)⟩
  | cons t rest ih =>
    intro M M' h
    obtain ⟨c, op⟩ := t
    rw [RepRadial_LC_loop] at h
    obtain ⟨P, hP, h⟩ := py_bind_inv h
    obtain ⟨dP, hd, h⟩ := py_bind_inv h
    obtain ⟨⟨⟩, hc, h⟩ := py_bind_inv h
    obtain ⟨⟨Ps, hPs⟩, ht⟩ := ih h
    refine ⟨⟨P :: Ps, .cons hP hPs⟩, ?_⟩
    cases d
    · refine .inr fun u hu => ?_
      rcases List.mem_cons.1 hu with rfl | hu
      · show RepRadialProd_dtype op _ _ _ _ _ ≠ _
        rw [hd]
        rintro ⟨⟩
        cases hc
      · rcases ht with ht | ht
        · cases ht
        · exact ht u hu
    · exact .inl rfl

theorem LC_loop_err {d : Dtype} {pre : List (ℝ × List RadSym)} {t : ℝ × List RadSym} {post : List (ℝ × List RadSym)}
    {e : PyErr} (hp : ∀ u ∈ pre, ∃ P, RepRadialProd la anorm u.2 lam lambda_var lo hi lap = .ok P)
    (hd : LCTypes lam lambda_var lo hi lap d pre)
    (he : (do let _ ← RepRadialProd la anorm t.2 lam lambda_var lo hi lap
              let dP ← RepRadialProd_dtype t.2 lam lambda_var lo hi lap
              iaddCheck d dP) = .error e) : ∀ M,
    RepRadial_LC_loop la anorm lam lambda_var lo hi lap d (pre ++ t :: post) M = .error e := by
  induction pre with
  | nil =>
    intro M
    obtain ⟨c, op⟩ := t
    rw [List.nil_append, RepRadial_LC_loop]
    dsimp only at he
    cases h1 : RepRadialProd la anorm op lam lambda_var lo hi lap with
    | error e' => rw [h1] at he; rw [py_bind_error] at he ⊢; injection he with he; rw [he]
    | ok P =>
      rw [h1] at he
      rw [py_bind_ok] at he ⊢
      cases h2 : RepRadialProd_dtype op lam lambda_var lo hi lap with
      | error e' => rw [h2] at he; rw [py_bind_error] at he ⊢; injection he with he; rw [he]
      | ok dP =>
        rw [h2] at he
        rw [py_bind_ok] at he ⊢
        rw [he, py_bind_error]
  | cons u pre ih =>
    intro M
    obtain ⟨P, hP⟩ := hp u (by simp)
    obtain ⟨dP, e1, -⟩ := dtype_ok hP
    have hc : iaddCheck d dP = .ok () := by
      rcases hd with rfl | hd
      · cases dP <;> rfl
      · have := hd u (by simp)
        rw [e1] at this
        cases dP
        · cases d <;> rfl
        · exact absurd rfl this
    obtain ⟨c, op⟩ := u
    rw [List.cons_append, RepRadial_LC_loop, hP, py_bind_ok, e1, py_bind_ok, hc, py_bind_ok]
    exact ih (fun u hu => hp u (by simp [hu])) (hd.imp_right fun h u hu => h u (by simp [hu])) _

theorem dtype_object {w : List RadSym} {P : Arr} (hP : RepRadialProd la anorm w lam lambda_var lo hi lap = .ok P)
    (hr : lo - min lap lo ≤ hi + lap) :
    RepRadialProd_dtype w lam lambda_var lo hi lap = .ok .object ↔ Symbolic w lam lambda_var := by
  obtain ⟨d, e, h⟩ := dtype_ok hP
  rw [e]
  constructor
  · intro h'; injection h' with h'; exact (h.1 h').2
  · intro hs; rw [h.2 ⟨hr, hs⟩]

theorem forall₂_left {α β : Type} {R : α → β → Prop} {xs : List α} {ys : List β} (h : List.Forall₂ R xs ys) :
    ∀ x ∈ xs, ∃ y ∈ ys, R x y := by
  induction h with
  | nil => intro x hx; cases hx
  | cons h1 _ ih =>
    intro x hx
    rcases List.mem_cons.1 hx with rfl | hx
    · exact ⟨_, by simp, h1⟩
    · obtain ⟨y, hy, h⟩ := ih x hx
      exact ⟨y, by simp [hy], h⟩

end

/-- C81, the part that holds.  Suppose that every product of a linear combination is represented by a matrix and
that the first of these matrices has SymPy numbers for elements or none of the others has.  Then the linear
combination is represented by the matrix with elements `∑ cᵢ Pᵢ`; the empty combination by the null matrix.

What is missing: combinations in which only the first matrix has floating point numbers, see `C81_fails`. -/
theorem C81_value_partial (la : LinAlg) (hla : LinAlgOk la) (anorm : ℝ) (ha : anorm ≠ 0)
    (rlc : List (ℝ × List RadSym)) (lam : ℝ) (lambda_var : Int) (nu_min nu_max nu_lap : ℕ)
    (hr : nu_min ≤ nu_max + 1) (Ps : List Arr)
    (h : List.Forall₂ (fun t P => RepRadialProd la anorm t.2 lam lambda_var nu_min nu_max nu_lap = .ok P) rlc Ps)
    (hd : nu_min ≤ nu_max + nu_lap → Addable rlc lam lambda_var) :
    ∃ M, RepRadial_LC la rlc anorm lam lambda_var nu_min nu_max nu_lap = .ok M ∧
      Square (nu_max + 1 - nu_min) M ∧
      ∀ i j, M.e i j = lincomb (rlc.map Prod.fst) (Ps.map fun P => P.e i j) := by
  have hsq : ∀ (t : ℝ × List RadSym) (P : Arr),
      RepRadialProd la anorm t.2 lam lambda_var nu_min nu_max nu_lap = .ok P →
      Square (nu_max + 1 - nu_min) P := fun t P hP =>
    (C17_window la hla anorm ha t.2 lam lambda_var nu_min nu_max nu_lap hr P hP).1
  cases h with
  | nil =>
    refine ⟨_, rfl, ?_, fun i j => ?_⟩
    · have : ((nu_max : Int) - nu_min + 1).toNat = nu_max + 1 - nu_min := by omega
      rw [this]
      exact ⟨rfl, rfl, fun i j _ => by simp [Arr.zeros, Arr.of]⟩
    · simp [Arr.zeros, Arr.of, lincomb]
  | @cons t P rest Ps hP hPs =>
    obtain ⟨c, op⟩ := t
    have hP1 := square_smul (hsq _ _ hP) c
    obtain ⟨d, e1, e2⟩ := dtype_ok hP
    have hT : LCTypes lam lambda_var nu_min nu_max nu_lap d rest := by
      by_cases hn : nu_min ≤ nu_max + nu_lap
      · rcases hd hn _ _ rfl with h | h
        · exact .inl (e2.2 ⟨by omega, h⟩)
        · refine .inr fun u hu h' => h u hu ?_
          obtain ⟨Q, -, hQ⟩ := forall₂_left hPs u hu
          exact (dtype_object hQ (by omega)).1 h'
      · refine .inr fun u hu h' => ?_
        obtain ⟨Q, -, hQ⟩ := forall₂_left hPs u hu
        obtain ⟨d', f1, f2⟩ := dtype_ok hQ
        rw [f1] at h'
        injection h' with h'
        have := (f2.1 h').1
        omega
    obtain ⟨M, hM, hs, hv⟩ := LC_loop_ok hPs (P.smul c) hP1.1 (fun Q hQ => by
      obtain ⟨i, hi, rfl⟩ := List.mem_iff_getElem.1 hQ
      have hi' : i < rest.length := by rw [hPs.length_eq]; exact hi
      exact hsq rest[i] _ (hPs.get hi' hi)) hT
    refine ⟨M, ?_, hs, fun i j => ?_⟩
    · rw [RepRadial_LC, hP, py_bind_ok, e1, py_bind_ok]; exact hM
    · rw [hv i j, hP1.2]; rfl

/-- C81.  Conversely a result is returned only if every product of the combination is represented and, on a range
which is not empty, the first matrix has SymPy numbers or none of the others has. -/
theorem C81_terms (la : LinAlg) (anorm : ℝ) (rlc : List (ℝ × List RadSym)) (lam : ℝ) (lambda_var lo hi lap : Int)
    (M : Arr) (h : RepRadial_LC la rlc anorm lam lambda_var lo hi lap = .ok M) :
    (∃ Ps, List.Forall₂ (fun t P => RepRadialProd la anorm t.2 lam lambda_var lo hi lap = .ok P) rlc Ps) ∧
      (lo - min lap lo ≤ hi + lap → Addable rlc lam lambda_var) := by
  cases rlc with
  | nil => exact ⟨⟨[], .nil⟩, fun _ _ _ h => by cases h⟩
  | cons t rest =>
    obtain ⟨c, op⟩ := t
    rw [RepRadial_LC] at h
    obtain ⟨P, hP, h⟩ := py_bind_inv h
    obtain ⟨d, hd, h⟩ := py_bind_inv h
    obtain ⟨⟨Ps, hPs⟩, hT⟩ := LC_loop_inv h
    refine ⟨⟨P :: Ps, .cons hP hPs⟩, fun hn => ?_⟩
    rintro t' rest' ⟨⟩
    rcases hT with rfl | hT
    · exact .inl ((dtype_object hP hn).1 hd)
    · refine .inr fun u hu hs => hT u hu ?_
      obtain ⟨Q, -, hQ⟩ := forall₂_left hPs u hu
      exact (dtype_object hQ hn).2 hs

/-- C81.  The exception raised is that of the first product that is rejected, if the matrices before it can be
added. -/
theorem C81_rejected (la : LinAlg) (anorm : ℝ) (pre post : List (ℝ × List RadSym)) (t : ℝ × List RadSym) (lam : ℝ)
    (lambda_var lo hi lap : Int) (e : PyErr)
    (hp : ∀ u ∈ pre, ∃ P, RepRadialProd la anorm u.2 lam lambda_var lo hi lap = .ok P)
    (hd : Addable pre lam lambda_var)
    (he : RepRadialProd la anorm t.2 lam lambda_var lo hi lap = .error e) :
    RepRadial_LC la (pre ++ t :: post) anorm lam lambda_var lo hi lap = .error e := by
  cases pre with
  | nil => obtain ⟨c, op⟩ := t; rw [List.nil_append, RepRadial_LC, he]; rfl
  | cons u pre =>
    obtain ⟨P, hP⟩ := hp u (by simp)
    obtain ⟨d, e1, e2⟩ := dtype_ok hP
    obtain ⟨c, op⟩ := u
    rw [List.cons_append, RepRadial_LC, hP, py_bind_ok, e1, py_bind_ok]
    refine LC_loop_err (fun u hu => hp u (by simp [hu])) ?_ (by rw [he, py_bind_error]) _
    by_cases hn : lo - min lap lo ≤ hi + lap
    · rcases hd _ _ rfl with h | h
      · exact .inl (e2.2 ⟨hn, h⟩)
      · refine .inr fun u hu h' => h u hu ?_
        obtain ⟨Q, hQ⟩ := hp u (by simp [hu])
        exact (dtype_object hQ hn).1 h'
    · refine .inr fun u hu h' => ?_
      obtain ⟨Q, hQ⟩ := hp u (by simp [hu])
      obtain ⟨d', f1, f2⟩ := dtype_ok hQ
      rw [f1] at h'
      injection h' with h'
      exact hn (f2.1 h').1

/-- C81 fails: if every product is represented, but the first matrix has floating point numbers and a later one
SymPy numbers, the linear combination is not represented: NumPy does not add an array of objects in place to one of
floating point numbers and raises `TypeError`. -/
theorem C81_fails (la : LinAlg) (anorm : ℝ) (t u : ℝ × List RadSym) (pre post : List (ℝ × List RadSym)) (lam : ℝ)
    (lambda_var lo hi lap : Int) (hn : lo - min lap lo ≤ hi + lap)
    (hp : ∀ v ∈ t :: pre ++ [u], ∃ P, RepRadialProd la anorm v.2 lam lambda_var lo hi lap = .ok P)
    (ht : ∀ v ∈ t :: pre, ¬ Symbolic v.2 lam lambda_var) (hu : Symbolic u.2 lam lambda_var) :
    RepRadial_LC la (t :: pre ++ u :: post) anorm lam lambda_var lo hi lap = .error .typeError := by
  obtain ⟨P, hP⟩ := hp t (by simp)
  obtain ⟨d, e1, e2⟩ := dtype_ok hP
  obtain ⟨Q, hQ⟩ := hp u (by simp)
  have hd : d = .float64 := by
    cases d
    · rfl
    · exact absurd (e2.1 rfl).2 (ht t (by simp))
  subst hd
  obtain ⟨c, op⟩ := t
  rw [List.cons_append, RepRadial_LC, hP, py_bind_ok, e1, py_bind_ok]
  refine LC_loop_err (fun v hv => hp v (by simp [hv])) (.inr fun v hv h' => ?_) ?_ _
  · obtain ⟨R, hR⟩ := hp v (by simp [hv])
    exact ht v (by simp [hv]) ((dtype_object hR hn).1 h')
  · rw [hQ, py_bind_ok, (dtype_object hQ hn).2 hu]
    rfl

/-- `d/dbeta` and `1/beta` from `lambda = 7/2` to `5/2` meet the hypotheses of `C81_fails`. -/
example (la : LinAlg) : (∀ v ∈ [((1 : ℝ), [RadSym.Db]), (3, [.bm])],
      ∃ P, RepRadialProd la 1 v.2 (5 / 2 + 1) (-1) 0 0 0 = .ok P) ∧ ¬ Symbolic [.Db] (5 / 2 + 1) (-1) ∧
    Symbolic [.bm] (5 / 2 + 1) (-1) := by
  have h1 : (0 : ℝ) < 5 / 2 + 1 := by norm_num
  have h2 : (0 : ℝ) < 5 / 2 + 1 + ((-1 : Int) : ℝ) := by norm_num
  refine ⟨fun v hv => ?_, by rw [symbolic_Db h1 h2]; decide, by rw [symbolic_bm h1 h2]; decide⟩
  simp only [List.mem_cons, List.not_mem_nil, or_false] at hv
  rcases hv with rfl | rfl
  · dsimp only
    rw [radial_Db_ml (by norm_num) le_rfl, rep_one (Db_ml_ok (by norm_num))]; exact ⟨_, rfl⟩
  · dsimp only
    rw [radial_bm_ml (by norm_num) le_rfl, rep_one (bm_ml_ok (by norm_num))]; exact ⟨_, rfl⟩

theorem lincomb_append : ∀ (cs ds xs ys : List ℝ), cs.length = xs.length →
    lincomb (cs ++ ds) (xs ++ ys) = lincomb cs xs + lincomb ds ys
  | [], ds, [], ys, _ => by simp [lincomb]
  | [], ds, x :: xs, ys, h => by simp at h
  | c :: cs, ds, [], ys, h => by simp at h
  | c :: cs, ds, x :: xs, ys, h => by
    simp only [List.cons_append, lincomb]
    rw [lincomb_append cs ds xs ys (by simpa using h)]; ring

theorem lincomb_smul (k : ℝ) : ∀ (cs xs : List ℝ), lincomb (cs.map (k * ·)) xs = k * lincomb cs xs
  | [], xs => by simp [lincomb]
  | c :: cs, [] => by simp [lincomb]
  | c :: cs, x :: xs => by
    simp only [List.map_cons, lincomb]
    rw [lincomb_smul k cs xs]; ring

/-- C81, the part that holds.  Sums: the matrix of a concatenated combination, if there is one, is the sum of the
matrices of the parts.

What is missing: the parts may be represented and the whole not, see `C81_fails`. -/
theorem C81_add_partial (la : LinAlg) (hla : LinAlgOk la) (anorm : ℝ) (ha : anorm ≠ 0)
    (r s : List (ℝ × List RadSym)) (lam : ℝ) (lambda_var : Int) (nu_min nu_max nu_lap : ℕ)
    (hr : nu_min ≤ nu_max + 1) (A B M : Arr)
    (hA : RepRadial_LC la r anorm lam lambda_var nu_min nu_max nu_lap = .ok A)
    (hB : RepRadial_LC la s anorm lam lambda_var nu_min nu_max nu_lap = .ok B)
    (hM : RepRadial_LC la (r ++ s) anorm lam lambda_var nu_min nu_max nu_lap = .ok M) :
      Square (nu_max + 1 - nu_min) M ∧ ∀ i j, M.e i j = A.e i j + B.e i j := by
  obtain ⟨⟨Ps, hP⟩, tA⟩ := C81_terms _ _ _ _ _ _ _ _ _ hA
  obtain ⟨⟨Qs, hQ⟩, tB⟩ := C81_terms _ _ _ _ _ _ _ _ _ hB
  obtain ⟨-, tM⟩ := C81_terms _ _ _ _ _ _ _ _ _ hM
  obtain ⟨A', eA, -, vA⟩ := C81_value_partial la hla anorm ha r lam lambda_var nu_min nu_max nu_lap hr Ps hP
    fun _ => tA (by omega)
  obtain ⟨B', eB, -, vB⟩ := C81_value_partial la hla anorm ha s lam lambda_var nu_min nu_max nu_lap hr Qs hQ
    fun _ => tB (by omega)
  obtain ⟨M', eM, sM, vM⟩ := C81_value_partial la hla anorm ha (r ++ s) lam lambda_var nu_min nu_max nu_lap hr
    (Ps ++ Qs) (List.rel_append hP hQ) fun _ => tM (by omega)
  rw [hA] at eA
  rw [hB] at eB
  rw [hM] at eM
  injection eA with eA
  injection eB with eB
  injection eM with eM
  subst eA eB eM
  refine ⟨sM, fun i j => ?_⟩
  rw [vM, vA, vB, List.map_append, List.map_append, lincomb_append]
  simp [hP.length_eq]

/-- C81.  Multiples: multiplying all coefficients multiplies the matrix. -/
theorem C81_smul (la : LinAlg) (hla : LinAlgOk la) (anorm : ℝ) (ha : anorm ≠ 0)
    (r : List (ℝ × List RadSym)) (k lam : ℝ) (lambda_var : Int) (nu_min nu_max nu_lap : ℕ)
    (hr : nu_min ≤ nu_max + 1) (A : Arr)
    (hA : RepRadial_LC la r anorm lam lambda_var nu_min nu_max nu_lap = .ok A) :
    ∃ M, RepRadial_LC la (r.map fun t => (k * t.1, t.2)) anorm lam lambda_var nu_min nu_max nu_lap = .ok M ∧
      Square (nu_max + 1 - nu_min) M ∧ ∀ i j, M.e i j = k * A.e i j := by
  obtain ⟨⟨Ps, hP⟩, tA⟩ := C81_terms _ _ _ _ _ _ _ _ _ hA
  obtain ⟨A', eA, -, vA⟩ := C81_value_partial la hla anorm ha r lam lambda_var nu_min nu_max nu_lap hr Ps hP
    fun _ => tA (by omega)
  obtain ⟨M, eM, sM, vM⟩ := C81_value_partial la hla anorm ha (r.map fun t => (k * t.1, t.2)) lam lambda_var nu_min
    nu_max nu_lap hr Ps (by rw [List.forall₂_map_left_iff]; exact hP) (fun hn t rest e => by
      cases r with
      | nil => cases e
      | cons x r =>
        rw [List.map_cons] at e
        injection e with e1 e2
        subst e1 e2
        refine (tA (by omega) x r rfl).imp_right fun h u hu => ?_
        obtain ⟨w, hw, rfl⟩ := List.mem_map.1 hu
        exact h w hw)
  rw [hA] at eA
  injection eA with eA
  subst eA
  refine ⟨M, eM, sM, fun i j => ?_⟩
  rw [vM, vA, ← lincomb_smul]
  simp [Function.comp_def]

/-- The combination `d/dbeta + 3/beta` from `lambda = 5/2` to `7/2` is represented, and one with an unknown
symbol is not. -/
example : ∃ la, LinAlgOk la ∧ (∃ A, RepRadial_LC la [(1, [.Db]), (3, [.bm])] 1 (5 / 2) 1 0 0 0 = .ok A) ∧
    RepRadialProd la 1 [.Db, .other] (5 / 2) 1 0 0 0 = .error .valueError := by
  obtain ⟨la, hla⟩ := linAlg_exists
  exact ⟨la, hla, ⟨_, LC_up (by norm_num) 3⟩, C16_rejects _ _ _ _ _ _ _ _ (Or.inr (Or.inr (by simp)))⟩

end Acm.Props
