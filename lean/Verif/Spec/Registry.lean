import Verif.Model.Registry
import Verif.Spec.Constructors
import Verif.Spec.Numpy

/-
Specification for C62: the names that importing the package registers, and what `CType.from_numpy_dtype` makes of a dtype.
-/
namespace DS

/-- The names of types after the import: those of the datashape language except `json` and `complex`, and six more. -/
inductive RegisteredType : Str → Ty → Prop where
  | named {n t} : NamedType n t → n ≠ py"json" → n ≠ py"complex" → RegisteredType n t
  | char : RegisteredType (py"char") (.ctype (py"char") 1 1)
  | float : RegisteredType (py"float") (.ctype (py"float32") 4 4)
  | double : RegisteredType (py"double") (.ctype (py"float64") 8 8)
  | bytes : RegisteredType (py"bytes") .bytes
  /-- the complex types also under the names they print as -/
  | complexes {k} : k ∈ [4, 8] → RegisteredType (py"complex[float" ++ natStr (8 * k) ++ py"]")
      (.ctype (py"complex[float" ++ natStr (8 * k) ++ py"]") (2 * k) k)

/-- The type that `CType.from_numpy_dtype` gives for a dtype when nobody has bound further names. -/
inductive DtypeMeans : DType → Ty → Prop where
  /-- the type of the same name -/
  | prim {p t} : NamedType p.npName t → DtypeMeans (.prim p) t
  | date {u} : u ∈ dateUnits → DtypeMeans (.datetime u) .date
  | datetime {u} : u ∉ dateUnits → DtypeMeans (.datetime u) (.datetime none)
  | timedelta {u v} : SpellsUnit u v → DtypeMeans (.timedelta u) (.timedelta v)
  | str (n : Nat) : DtypeMeans (.str n) (.string (some n) (py"U32"))
  | bytes (n : Nat) : n ≠ 0 → DtypeMeans (.bytes n) (.string (some n) (py"A"))
  | noBytes : DtypeMeans (.bytes 0) .bytes
  /-- structured dtypes without content -/
  | empty {fs} : fieldsSize fs = 0 → DtypeMeans (.struct fs) (.ctype (py"void") 0 1)

/-- What it raises. -/
inductive DtypeRaises : DType → PyErr → Prop where
  | timedelta {u} : (∀ v, ¬ SpellsUnit u v) → ¬ RunsOut u → DtypeRaises (.timedelta u) .valueError
  | timedeltaEmpty {u} : RunsOut u → DtypeRaises (.timedelta u) .indexError
  | struct {fs} : fieldsSize fs ≠ 0 → DtypeRaises (.struct fs) .notImplemented

/-- the name an operation may bind -/
def RegOp.binds {α : Type} (n : Str) : RegOp α → Prop
  | .register m _ => m = n
  | .define m _ => m = n
  | .lookup _ => False

end DS
