import Verif.Model.Registry
import Verif.Spec.Constructors
import Verif.Spec.Subterms
import Verif.Spec.Registry

/-
Specification for C63: the dtype that NumPy uses for a datashape.
-/
namespace DS

/-- the names of NumPy's dtypes, and those that datashape gives to complex numbers -/
inductive NpName : Str → Prim → Prop where
  | name (p : Prim) : NpName p.npName p
  | complex64 : NpName (py"complex[float32]") .complex64
  | complex128 : NpName (py"complex[float64]") .complex128

/-- dimensions that NumPy has: fixed ones, and type variables, which are shown as -1 -/
inductive NpDim : Ty → Int → Prop where
  | fixed (n : Nat) : NpDim (.fixed n) n
  | typevar (s : Str) : NpDim (.typevar s) (-1)

/-- The name of the `i`-th field: NumPy replaces an empty name. -/
def npFieldName (i : Nat) (n : Str) : Str := if n = [] then py"f" ++ natStr i else n

mutual
/-- `DtypeOf t d`: the measure `t` is stored as `d`. -/
inductive DtypeOf : Ty → DType → Prop where
  | sized {n i a p} : NpName n p → DtypeOf (.ctype n i a) (.prim p)
  | date : DtypeOf .date (.datetime (py"D"))
  | datetime (z) : DtypeOf (.datetime z) (.datetime (py"us"))
  | timedelta (u) : DtypeOf (.timedelta u) (.timedelta u)
  /-- strings without a length, or of length 0, are objects -/
  | string (e) : DtypeOf (.string none e) (.prim .object)
  | string0 (e) : DtypeOf (.string (some 0) e) (.prim .object)
  | ascii (n : Nat) : DtypeOf (.string (some (n + 1 : Nat)) (py"A")) (.bytes (n + 1))
  | text (n : Nat) {e} : e ≠ py"A" → DtypeOf (.string (some (n + 1 : Nat)) e) (.str (n + 1))
  /-- decimals are integers of the least sufficient size (C22), or doubles if they have a fraction -/
  | decimal8 {p} : p ≤ 2 → DtypeOf (.decimal p 0) (.prim .int8)
  | decimal16 {p} : 2 < p → p ≤ 4 → DtypeOf (.decimal p 0) (.prim .int16)
  | decimal32 {p} : 4 < p → p ≤ 9 → DtypeOf (.decimal p 0) (.prim .int32)
  | decimal64 {p} : 9 < p → p ≤ 18 → DtypeOf (.decimal p 0) (.prim .int64)
  | fraction {p s} : s ≠ 0 → DtypeOf (.decimal p s) (.prim .float64)
  /-- NumPy has missing values only for times -/
  | optDate : DtypeOf (.option .date) (.datetime (py"D"))
  | optDatetime (z) : DtypeOf (.option (.datetime z)) (.datetime (py"us"))
  | optTimedelta (u) : DtypeOf (.option (.timedelta u)) (.timedelta u)
  /-- of a mapping, the keys -/
  | map {k v d} : MeasureDtype k d → DtypeOf (.map k v) d
  /-- a record: the fields under their names, without their dimensions -/
  | record {fs : List (Str × Ty)} {gs : List (Str × List Nat × DType)} : fs.length = gs.length →
      (∀ (i : Nat) n t g, fs[i]? = some (n, t) → gs[i]? = some g → g.1 = npFieldName i n ∧ g.2.1 = []) →
      (∀ (i : Nat) n t g, fs[i]? = some (n, t) → gs[i]? = some g → MeasureDtype t g.2.2) →
      (gs.map (·.1)).Nodup → DtypeOf (.record fs) (.struct gs)
  /-- a tuple: the components as fields `f0`, `f1`, … -/
  | tuple {ts : List Ty} {gs : List (Str × List Nat × DType)} : ts.length = gs.length →
      (∀ (i : Nat) g, gs[i]? = some g → g.1 = py"f" ++ natStr i ∧ g.2.1 = []) →
      (∀ (i : Nat) t g, ts[i]? = some t → gs[i]? = some g → MeasureDtype t g.2.2) → DtypeOf (.tuple ts) (.struct gs)
/-- `MeasureDtype t d`: the elements of `t` are stored as `d`, whatever dimensions `t` has. If they are arrays again, these must
have dimensions that NumPy has. -/
inductive MeasureDtype : Ty → DType → Prop where
  | measure {t d} : DtypeOf t d → MeasureDtype t d
  | array {dims : List Ty} {m d} : DtypeOf m d → MeasureDtype (.dshape (dims ++ [m])) d
  | arrays {dims dims' : List Ty} {m d} : (∀ x ∈ dims', ∃ n, NpDim x n) → DtypeOf m d →
      MeasureDtype (.dshape (dims ++ [.dshape (dims' ++ [m])])) d
end

/-- `to_numpy`: shape and dtype -/
inductive NumpyOf : Ty → List Int → DType → Prop where
  | measure {t d} : DtypeOf t d → NumpyOf t [] d
  | array {dims : List Ty} {sh : List Int} {m d} : Each NpDim dims sh → DtypeOf m d → NumpyOf (.dshape (dims ++ [m])) sh d

/-- names of which two are the same for NumPy -/
def NpClash (fs : List (Str × Ty)) : Prop := ¬ (fs.zipIdx.map fun p => npFieldName p.2 p.1.1).Nodup

/-! ### the other way -/

/-- the dimension for an extent -/
inductive IsExtent : Int → Ty → Prop where
  | mk (n : Nat) : IsExtent n (.fixed n)

/-- neither text nor fields -/
def NpOther : DType → Prop
  | .bytes _ => False
  | .str _ => False
  | .struct fs => fs = []
  | _ => True

mutual
/-- `Stored d t`: the type of an element of an array with dtype `d`. -/
inductive Stored : DType → Ty → Prop where
  | bytes (n : Nat) : Stored (.bytes n) (.string (some n) (py"A"))
  | str (n : Nat) : Stored (.str n) (.string (some n) (py"U32"))
  | other {d t} : NpOther d → DtypeMeans d t → Stored d t
  /-- a record of the fields, each with its shape -/
  | struct {fs : List (Str × List Nat × DType)} {rs : List (Str × Ty)} : fs ≠ [] → fs.length = rs.length →
      (∀ (i : Nat) f g, fs[i]? = some f → rs[i]? = some g → g.1 = f.1) →
      (∀ (i : Nat) f g, fs[i]? = some f → rs[i]? = some g → FromNumpy f.2.2 (f.2.1.map fun (k : Nat) => (k : Int)) g.2) →
      (fs.map (·.1)).Nodup → Stored (.struct fs) (.record rs)
/-- `from_numpy(shape, d)` -/
inductive FromNumpy : DType → List Int → Ty → Prop where
  | scalar {d t} : Stored d t → FromNumpy d [] t
  | array {d t} {sh : List Int} {dims : List Ty} : sh ≠ [] → Each IsExtent sh dims → Stored d t → FromNumpy d sh (.dshape (dims ++ [t]))
end

mutual
/-- dtypes that have no datashape, and the exception: of the first field that has none; `ValueError` if two fields have one name -/
inductive StoredRaises : DType → PyErr → Prop where
  | other {d e} : NpOther d → DtypeRaises d e → StoredRaises d e
  | field {pre : List (Str × List Nat × DType)} {f : Str × List Nat × DType} {post : List (Str × List Nat × DType)} {e} :
      (∀ g ∈ pre, ∃ t, FromNumpy g.2.2 (g.2.1.map fun (k : Nat) => (k : Int)) t) →
      FromRaises f.2.2 (f.2.1.map fun (k : Nat) => (k : Int)) e → StoredRaises (.struct (pre ++ f :: post)) e
  | names {fs : List (Str × List Nat × DType)} : fs ≠ [] → (∀ g ∈ fs, ∃ t, FromNumpy g.2.2 (g.2.1.map fun (k : Nat) => (k : Int)) t) →
      ¬ (fs.map (·.1)).Nodup → StoredRaises (.struct fs) .valueError
/-- `from_numpy(shape, d)`: the dtype is looked at first, then the shape -/
inductive FromRaises : DType → List Int → PyErr → Prop where
  | measure {d e} {sh : List Int} : StoredRaises d e → FromRaises d sh e
  | shape {d t} {sh : List Int} : Stored d t → (∃ n ∈ sh, n < 0) → FromRaises d sh .valueError
end

end DS
