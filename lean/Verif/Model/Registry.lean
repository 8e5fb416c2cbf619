import Verif.Model.Typesets

/-
The registry of type names `Type._registry` (coretypes.py:36-57) as importing the package fills it, and
`CType.from_numpy_dtype`, which looks dtypes up in it.
-/
namespace DS

/-- What a name is bound to: a class, or a datashape. -/
inductive Entry where
  | cls (name : Str)
  | ty (t : Ty)
  deriving Inhabited

/-- The statements of coretypes.py and typesets.py that bind names, in the order in which importing the package executes them:
the classes (coretypes.py:39-44; `with_metaclass` creates a class called `_`, py2help.py:95), the sized types
(coretypes.py:761) and the other registrations (coretypes.py:1172-1279), and `TypeSet` (typesets.py:17). On a 64-bit
platform. -/
def loading : List (RegOp Entry) :=
  ([py"_", py"Mono", py"Unit", py"Ellipsis", py"Null", py"Date", py"Time", py"DateTime", py"TimeDelta", py"Units", py"Bytes",
    py"String", py"Decimal", py"DataShape", py"Option", py"CType", py"Fixed", py"Var", py"TypeVar", py"Function", py"Map",
    py"_", py"Record", py"Categorical", py"Tuple", py"JSON"].map fun n => RegOp.define n (.cls n)) ++
  ([(py"bool", tBool), (py"char", tChar), (py"int8", tInt8), (py"int16", tInt16), (py"int32", tInt32), (py"int64", tInt64),
    (py"int", tInt32), (py"uint8", tUint8), (py"uint16", tUint16), (py"uint32", tUint32), (py"uint64", tUint64),
    (py"float16", tFloat16), (py"float32", tFloat32), (py"float64", tFloat64), (py"real", tFloat64),
    (py"complex[float32]", tComplex64), (py"complex[float64]", tComplex128), (py"complex64", tComplex64),
    (py"complex128", tComplex128), (py"date", .date), (py"time", .time none), (py"datetime", .datetime none),
    (py"timedelta", tTimedelta), (py"null", .null), (py"intptr", tInt64), (py"uintptr", tUint64), (py"void", tVoid),
    (py"object", tObject), (py"float", tFloat32), (py"double", tFloat64), (py"bytes", .bytes), (py"string", tString)].map
    fun p => RegOp.register p.1 (.ty p.2)) ++
  [.define (py"TypeSet") (.cls (py"TypeSet"))]

/-- `Type._registry` after `import datashape` -/
def loaded : Registry Entry := Registry.run [] loading

/-- `dtype.name` for the dtypes with a fixed name -/
def Prim.npName : Prim → Str
  | .bool => py"bool" | .int8 => py"int8" | .int16 => py"int16" | .int32 => py"int32" | .int64 => py"int64"
  | .uint8 => py"uint8" | .uint16 => py"uint16" | .uint32 => py"uint32" | .uint64 => py"uint64"
  | .float16 => py"float16" | .float32 => py"float32" | .float64 => py"float64"
  | .complex64 => py"complex64" | .complex128 => py"complex128" | .object => py"object" | .void => py"void"

/-- `dtype.name` of NumPy: flexible dtypes have the number of their bits behind their name unless they are empty, points in
time and time deltas their unit in brackets unless they have none (`generic`). -/
def DType.npName : DType → Str
  | .prim p => p.npName
  | .datetime u => if u = py"generic" then py"datetime64" else py"datetime64[" ++ u ++ py"]"
  | .timedelta u => if u = py"generic" then py"timedelta64" else py"timedelta64[" ++ u ++ py"]"
  | .bytes n => if n = 0 then py"bytes" else py"bytes" ++ natStr (8 * n)
  | .str n => if n = 0 then py"str" else py"str" ++ natStr (32 * n)
  | .struct fs => if fieldsSize fs = 0 then py"void" else py"void" ++ natStr (8 * fieldsSize fs)

/-- `CType.from_numpy_dtype(dt)` with the registry `r`: coretypes.py:763-794 -/
def fromDtypeIn (r : Registry Entry) (d : DType) : Except PyErr Entry :=
  match r.lookup d.npName with
  | some e => .ok e
  | none => match d with
    | .datetime u => .ok (.ty (if u = py"D" ∨ u = py"Y" ∨ u = py"M" ∨ u = py"W" then .date else .datetime none))
    | .timedelta u => (mkTimeDelta u).map .ty
    | .str n => (mkString (some n) (some (py"U32"))).map .ty
    | .bytes n => (mkString (some n) (some (py"ascii"))).map .ty
    | .prim _ => .error .notImplemented
    | .struct _ => .error .notImplemented

/-- `DataShape(*ps, name=n)`: the datashape and the registry afterwards; an empty name is no name: coretypes.py:542-566 -/
def namedDS (r : Registry Entry) (ps : List Ty) (n : Str) : Except PyErr (Ty × Registry Entry) := do
  let t ← mkDS ps
  .ok (t, if n.isEmpty then r else (r.step (.define n (.ty t))).1)

/-- `CType(name, itemsize, alignment)`: coretypes.py:757-761 -/
def newCType (r : Registry Entry) (n : Str) (i a : Nat) : Except PyErr (Ty × Registry Entry) :=
  match r.step (.register n (.ty (.ctype n i a))) with
  | (_, .raised e) => .error e
  | (r', _) => .ok (.ctype n i a, r')

end DS
