import Verif.Model.Compat
import Verif.Model.RadialWords
import Mathlib.Data.Real.Basic

/-!
# The keys of a memo table (src/acmpy/radial_space.py lines 1343-1391 and 1477)

`functools.cache` keeps the results of `RepRadialshfs_Prod` in a dict, whose keys contain objects of the classes `KTOp` and `SOp`. A
dict compares hash values and then calls `__eq__`.
-/

namespace Acm

/-- Python's `hash` for int, float and, from the hash values of the elements, for tuple. -/
structure PyHash where
  int : Int → Int
  flt : ℝ → Int
  tup : List Int → Int

/-- radial_space.py lines 1358-1363 `KTOp.__init__` (the check of the types is in CompatVal). -/
def KTOp.new (K T : Int) : Py KTSOp := do
  require_nonnegint T
  pure (.KT K T)

/-- radial_space.py lines 1381-1385 `SOp.__init__`. -/
def SOp.new (S : Int) : Py KTSOp :=
  if S ∈ [-1, 0, 1] then pure (.S S) else throw .valueError

/-- radial_space.py lines 1365-1366 and 1387-1388 `__eq__`: the class of the object on the left decides which of the two is called. -/
def KTSOp.pyEq : KTSOp → KTSOp → Bool
  | .KT K T, other => match other with
    | .KT K' T' => K == K' && T == T'
    | .S _ => false
  | .S s, other => match other with
    | .S s' => s == s'
    | .KT _ _ => false

/-- radial_space.py lines 1368-1369 and 1390-1391 `__hash__`. -/
def KTSOp.pyHash (H : PyHash) : KTSOp → Int
  | .KT K T => H.tup [H.int K, H.int T]
  | .S s => H.int s

/-- `==` of tuples: the elements are compared one after the other. -/
def tupEq {α : Type} (eq : α → α → Bool) : List α → List α → Bool
  | [], [] => true
  | x :: xs, y :: ys => eq x y && tupEq eq xs ys
  | _, _ => false

/-- radial_space.py lines 1478-1481: the arguments of `RepRadialshfs_Prod`, given by position. -/
structure ShfsArgs where
  rps_op : List KTSOp
  anorm : ℝ
  lambdaa : ℝ
  lambda_shfs : List Int
  nu_min : Int
  nu_max : Int

/-- `==` of two tuples of arguments. (A float is equal to itself: no nan.) -/
noncomputable def ShfsArgs.pyEq (a b : ShfsArgs) : Bool :=
  tupEq KTSOp.pyEq a.rps_op b.rps_op && (open Classical in decide (a.anorm = b.anorm)) &&
    (open Classical in decide (a.lambdaa = b.lambdaa)) && tupEq (fun x y : Int => x == y) a.lambda_shfs b.lambda_shfs &&
    a.nu_min == b.nu_min && a.nu_max == b.nu_max

/-- `hash` of a tuple of arguments. -/
def ShfsArgs.pyHash (H : PyHash) (a : ShfsArgs) : Int :=
  H.tup [H.tup (a.rps_op.map (KTSOp.pyHash H)), H.flt a.anorm, H.flt a.lambdaa, H.tup (a.lambda_shfs.map H.int), H.int a.nu_min,
    H.int a.nu_max]

/-- One entry of a dict: the hash value of the key, the key, and the value. -/
structure Entry (κ β : Type) where
  hash : Int
  key : κ
  val : β

/-- A dict, with the order in which the entries are inspected: `probe h` rearranges the entries for a key with hash value `h`.
(CPython inspects only entries whose place in the table depends on `h`, which include all with hash value `h`.) -/
structure DictImpl (κ β : Type) where
  probe : Int → List (Entry κ β) → List (Entry κ β)

/-- The value for a key: that of the first inspected entry that has its hash value and an equal key. -/
def DictImpl.get {κ β : Type} (I : DictImpl κ β) (eq : κ → κ → Bool) (hash : κ → Int) (d : List (Entry κ β)) (k : κ) : Option β :=
  ((I.probe (hash k) d).find? fun e => e.hash == hash k && eq e.key k).map Entry.val

/-- `functools.cache` for a function `f`, together with the list of arguments for which `f` has been called. An exception is not kept. -/
def cacheCall {κ β : Type} (I : DictImpl κ β) (eq : κ → κ → Bool) (hash : κ → Int) (f : κ → Py β) (k : κ) :
    StPy (List (Entry κ β) × List κ) β := fun s =>
  match I.get eq hash s.1 k with
  | some v => (.ok v, s)
  | none =>
    match f k with
    | .ok v => (.ok v, (s.1 ++ [⟨hash k, k, v⟩], s.2 ++ [k]))
    | .error e => (.error e, (s.1, s.2 ++ [k]))

/-- A series of calls: what each returns or raises, and the dict and the computed arguments at the end. -/
def cacheCalls {κ β : Type} (I : DictImpl κ β) (eq : κ → κ → Bool) (hash : κ → Int) (f : κ → Py β) :
    List κ → List (Entry κ β) × List κ → List (Py β) × (List (Entry κ β) × List κ)
  | [], s => ([], s)
  | k :: ks, s =>
    let r := cacheCall I eq hash f k s
    let rs := cacheCalls I eq hash f ks r.2
    (r.1 :: rs.1, rs.2)

end Acm
