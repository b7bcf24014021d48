import Verif.Props.Scale
import Verif.Lemmas.RadialHam
import Verif.Spec.Diagonal

/-!
# Property C108: operators which are functions of the quantum numbers
-/

namespace Acm.Props

open Acm.Spec

theorem prodMat_nil {env : XEnv} {a : XArgs} (h : LegalRanges a) (lam : LambdaFunction) {ls : Int → Int}
    (hl : ∀ v, a.v_min ≤ v → v ≤ a.v_max → lam v = .ok (ls v)) (hpos : ∀ v, a.v_min ≤ v → v ≤ a.v_max → 0 < a.lambda_base + ls v) :
    prodMat env a [] lam = .ok (Arr.eye a.dim) := by
  obtain ⟨n, hn, hT⟩ := C29_identity h env lam (states_ok h) (fun s => ls s.1)
    (fun s hs => hl s.1 (mem_labelsV.1 hs).1.1 (mem_labelsV.1 hs).1.2)
    (fun s hs => hpos s.1 (mem_labelsV.1 hs).1.1 (mem_labelsV.1 hs).1.2)
  rw [dimXspace_ok h] at hn
  have hn' : a.dim = n := by
    injection hn with hn
    exact_mod_cast hn
  unfold prodMat
  rw [check_ok h, py_bind_ok, show segsOf [] [] [] = [.twin [] []] from rfl, hn']
  simp only [segMat, segsMat, hT, py_bind_ok]
  rfl

theorem allMat_diag {env : XEnv} {a : XArgs} (h : LegalRanges a) (lam : LambdaFunction) {ls : Int → Int}
    (hl : ∀ v, a.v_min ≤ v → v ≤ a.v_max → lam v = .ok (ls v)) (hpos : ∀ v, a.v_min ≤ v → v ≤ a.v_max → 0 < a.lambda_base + ls v)
    {op : OperatorSum} (hd : Diagonal op) : ∃ M, allMat env a op lam = .ok M ∧ Square a.dim M ∧ ∀ p q x, p < a.dim →
      a.xlabels[q]? = some x → M.e p q = if p = q then valueAt op x else 0 := by
  obtain ⟨M, h1, h2, h3⟩ := rep_sum (env := env) (ts := op) (f := fun _ p q => if p = q then 1 else 0) h (lam := lam) fun t ht => by
    refine ⟨_, by rw [hd t ht]; exact prodMat_nil h lam hl hpos, fun p q hp hq => ?_⟩
    simp only [Arr.eye, Arr.of]
    rw [if_pos ⟨hp, hq⟩]
  refine ⟨M, h1, h2, fun p q x hp hq => ?_⟩
  rw [h3 p q x hp hq]
  by_cases hpq : p = q
  · simp only [if_pos hpq, mul_one]
    rfl
  · simp only [if_neg hpq, mul_zero]
    simp

theorem tame_diag {op : OperatorSum} (hd : Diagonal op) : Op_Tame op = true := by
  unfold Op_Tame
  split_ifs
  · rfl
  · rw [List.all_eq_true]
    intro p hp
    obtain ⟨t, ht, rfl⟩ := List.mem_map.1 hp
    rw [hd t ht]
    rfl

/-- C108: a Hamiltonian which is a function of the quantum numbers can always be diagonalised, and for each angular momentum that
occurs its energies are the values of the function at the states, each as often as there are states, in ascending order. -/
theorem C108_energies {env : XEnv} (hla : LinAlgOk env.la) {a : XArgs} (h : LegalRanges a) {s : FState} (hs : MemoOk env s.xs)
    {ls : Int → Int} (hl : ∀ v, a.v_min ≤ v → v ≤ a.v_max → s.glb.lam_fun v = .ok (ls v))
    (hpos : ∀ v, a.v_min ≤ v → v ≤ a.v_max → 0 < a.lambda_base + ls v) {op : OperatorSum} (hd : Diagonal op) :
    ∃ r s', DigXspace env op a s = (.ok r, s') ∧ OccupiedL a (r.map LEig.L) ∧ ∀ x ∈ r, x.vals.Pairwise (· ≤ ·) ∧
      ∃ xs, lbsXspace a.nu_min a.nu_max a.v_min a.v_max x.L none = .ok xs ∧ x.vals.Perm (xs.map (valueAt op)) := by
  have ht := tame_diag hd
  obtain ⟨r, s', hr⟩ := digTame_total (env := env) (ts := op) h _ (range_nonneg h) s hs fun L hL => by
    obtain ⟨M, hM, _⟩ := allMat_diag (env := env) (legal_at h (range_nonneg h L hL)) s.glb.lam_fun hl hpos hd
    exact ⟨M, hM⟩
  have hdig : DigXspace env op a s = (.ok r, s') := by
    unfold DigXspace
    rw [check_ok h, st_lift_ok, if_pos ht]
    exact hr
  obtain ⟨ho, hx⟩ := C32_partial ht h hs hdig
  refine ⟨r, s', hdig, ho, fun x hxr => ?_⟩
  have hL : 0 ≤ x.L := by
    have h1 := ((ho.2 x.L).1 (List.mem_map_of_mem hxr)).1.1
    have h2 := h.2.2.1
    omega
  have hleg := legal_at h hL
  obtain ⟨_, M, v, e1, e2, e3⟩ := hx x hxr
  obtain ⟨M', k1, k2, k3⟩ := allMat_diag (env := env) hleg s.glb.lam_fun hl hpos hd
  rw [rep_eq hleg hs] at e1
  have : M' = M := by
    have := k1.symm.trans e1
    injection this
  subst this
  have hlen := length_xlabels (a.at x.L)
  obtain ⟨p1, p2⟩ := eig_diag hla (d := fun p => valueAt op ((a.at x.L).xlabels.getD p (0, 0, 0, 0))) k2.1 k2.2.1
    (fun p q hp hq => by
      have hq' : q < (a.at x.L).xlabels.length := by rw [hlen]; exact hq
      rw [k3 p q _ hp (List.getElem?_eq_getElem hq')]
      by_cases hpq : p = q
      · subst hpq
        rw [if_pos rfl, if_pos rfl, List.getD_eq_getElem?_getD, List.getElem?_eq_getElem hq', Option.getD_some]
      · rw [if_neg hpq, if_neg hpq]) e2
  rw [e3, k2.1]
  refine ⟨p2, (a.at x.L).xlabels, ?_, ?_⟩
  · exact lbsXspace_ok hleg
  · refine p1.trans (List.Perm.of_eq ?_)
    rw [← hlen]
    refine List.ext_getElem (by simp) fun i h1 h2 => ?_
    simp at h1
    simp [h1]

/-- C108: the names for the quantum numbers mean what they say.  A Hamiltonian that is a combination of the number of the radial
excitation, the seniority, the multiplicity index and the angular momentum has the energies this says. -/
theorem C108_numbers {env : XEnv} (hla : LinAlgOk env.la) {a : XArgs} (h : LegalRanges a) {s : FState} (hs : MemoOk env s.xs)
    {ls : Int → Int} (hl : ∀ v, a.v_min ≤ v → v ≤ a.v_max → s.glb.lam_fun v = .ok (ls v))
    (hpos : ∀ v, a.v_min ≤ v → v ≤ a.v_max → 0 < a.lambda_base + ls v) (f : ℝ → ℝ → ℝ → ℝ → ℝ) :
    ∃ r s', DigXspace env [(fun x => f (NUMBER x) (SENIORITY x) (ALFA x) (ANGMOM x), [])] a s = (.ok r, s') ∧ OccupiedL a (r.map LEig.L) ∧
      ∀ x ∈ r, x.vals.Pairwise (· ≤ ·) ∧ ∃ ys : List (ℕ × ℕ × ℕ), ys.Nodup ∧ x.vals.Perm (ys.map fun y => f y.1 y.2.1 y.2.2 x.L) ∧
        ∀ nu v al : ℕ, (nu, v, al) ∈ ys ↔ (a.nu_min ≤ nu ∧ nu ≤ a.nu_max) ∧ (a.v_min ≤ v ∧ v ≤ a.v_max) ∧
          1 ≤ al ∧ al ≤ branching v x.L.toNat := by
  obtain ⟨r, s', hr, ho, hx⟩ := C108_energies hla h hs hl hpos
    (op := [(fun x => f (NUMBER x) (SENIORITY x) (ALFA x) (ANGMOM x), [])]) (by simp [Diagonal])
  refine ⟨r, s', hr, ho, fun x hxr => ?_⟩
  obtain ⟨h1, xs, h2, h3⟩ := hx x hxr
  have hL : 0 ≤ x.L := by
    have h1 := ((ho.2 x.L).1 (List.mem_map_of_mem hxr)).1.1
    have h2 := h.2.2.1
    omega
  have hleg := legal_at h hL
  have e : lbsXspace a.nu_min a.nu_max a.v_min a.v_max x.L none = .ok (a.at x.L).xlabels := lbsXspace_ok hleg
  rw [e] at h2
  injection h2 with h2
  subst h2
  have hnd : (a.at x.L).xlabels.Nodup := C27_distinct hleg (lbsXspace_ok hleg)
  have hmem : ∀ nu v al K : Int, (nu, v, al, K) ∈ (a.at x.L).xlabels ↔ (a.nu_min ≤ nu ∧ nu ≤ a.nu_max) ∧ (a.v_min ≤ v ∧ v ≤ a.v_max) ∧
      (1 ≤ al ∧ al ≤ dimV v K) ∧ K = x.L := by
    intro nu v al K
    rw [xlabels_at_eq]
    have hS : (a.at x.L).states = labelsV a.v_min a.v_max x.L x.L := rfl
    simp only [hS, List.mem_flatMap, List.mem_map, lbsRadial, mem_pyRange, Prod.mk.injEq]
    constructor
    · rintro ⟨s, hs, n, hn, rfl, rfl⟩
      have := mem_labelsV.1 hs
      omega
    · rintro ⟨k1, k2, k3, rfl⟩
      exact ⟨(v, al, x.L), mem_labelsV.2 ⟨k2, k3, le_rfl, le_rfl⟩, nu, by omega, rfl, rfl⟩
  have hn0 := h.1.1
  have hv0 := h.2.1.1
  refine ⟨h1, (a.at x.L).xlabels.map fun y => (y.1.toNat, y.2.1.toNat, y.2.2.1.toNat), ?_, ?_, fun nu v al => ?_⟩
  · refine List.Nodup.map_on ?_ hnd
    rintro ⟨n, v, b, K⟩ p1 ⟨n', v', b', K'⟩ p2 he
    have q1 := (hmem _ _ _ _).1 p1
    have q2 := (hmem _ _ _ _).1 p2
    simp only [Prod.mk.injEq] at he ⊢
    omega
  · refine h3.trans (List.Perm.of_eq ?_)
    rw [List.map_map]
    refine List.map_congr_left ?_
    rintro ⟨n, v, b, K⟩ p
    have q := (hmem _ _ _ _).1 p
    have c1 : ((n.toNat : ℕ) : ℝ) = (n : ℝ) := by exact_mod_cast congrArg (Int.cast (R := ℝ)) (Int.toNat_of_nonneg (by omega : 0 ≤ n))
    have c2 : ((v.toNat : ℕ) : ℝ) = (v : ℝ) := by exact_mod_cast congrArg (Int.cast (R := ℝ)) (Int.toNat_of_nonneg (by omega : 0 ≤ v))
    have c3 : ((b.toNat : ℕ) : ℝ) = (b : ℝ) := by exact_mod_cast congrArg (Int.cast (R := ℝ)) (Int.toNat_of_nonneg (by omega : 0 ≤ b))
    simp only [valueAt, List.map_cons, List.map_nil, List.sum_cons, List.sum_nil, add_zero, NUMBER, SENIORITY, ALFA, ANGMOM, Function.comp,
      c1, c2, c3, q.2.2.2]
  · have hb : (dimV v x.L) = branching v x.L.toNat := by
      rw [← dimV_eq_branching, Int.toNat_of_nonneg hL]
    rw [List.mem_map]
    constructor
    · rintro ⟨⟨n, w, b, K⟩, p, q⟩
      have p' := (hmem _ _ _ _).1 p
      simp only [Prod.mk.injEq] at q
      obtain ⟨q1, q2, q3⟩ := q
      have w0 : w = (v : Int) := by omega
      obtain ⟨p1, p2, p3, rfl⟩ := p'
      rw [w0, hb] at p3
      omega
    · rintro ⟨p1, p2, p3, p4⟩
      refine ⟨((nu : Int), (v : Int), (al : Int), x.L), (hmem _ _ _ _).2 ⟨p1, p2, ⟨by omega, ?_⟩, rfl⟩, by simp⟩
      rw [hb]
      omega

/-- The hypotheses of C108 are met by a space of many states, with any state of the files and any eigenvalue routine. -/
example (env : XEnv) : let a : XArgs := ⟨3 / 2, 5 / 2, 0, 3, 0, 5, 0, 6⟩
    let s : FState := ⟨Glb.init, fun _ => none, fun _ _ => none, fun _ => none, []⟩
    LegalRanges a ∧ MemoOk env s.xs ∧ ∃ ls : Int → Int, (∀ v, a.v_min ≤ v → v ≤ a.v_max → s.glb.lam_fun v = .ok (ls v)) ∧
      (∀ v, a.v_min ≤ v → v ≤ a.v_max → 0 < a.lambda_base + ls v) := by
  intro a s
  refine ⟨by simp [LegalRanges, a], memoOk_start env lambda_acm_fun, fun v => v % 2, fun v h1 h2 => ?_, fun v h1 h2 => ?_⟩
  · have h1' : 0 ≤ v := h1
    have h2' : v ≤ 5 := h2
    show lambda_acm_fun v = .ok (v % 2)
    interval_cases v <;> decide +kernel
  · have : 0 ≤ v % 2 := Int.emod_nonneg _ (by norm_num)
    have : (0 : ℝ) ≤ ((v % 2 : Int) : ℝ) := by exact_mod_cast this
    show (0 : ℝ) < 5 / 2 + ((v % 2 : Int) : ℝ)
    linarith

end Acm.Props
