import Verif.Model.Util

/-
NumPy conversion: coretypes.py:172-173 ff. (`to_numpy_dtype` methods), 1284-1353 (`to_numpy_dtype`, `to_numpy`,
`from_numpy`), 763-794 (`CType.from_numpy_dtype`).

NumPy itself is external. What is modelled of it: the dtypes below, `dtype.name`, `dtype.kind`, `dtype.itemsize` and
`dtype.fields` for them, `np.dtype(name)`, `np.dtype(list of pairs)`, and `np.issubdtype(·, np.number)`.
-/
namespace DS

/-- The sixteen dtypes that have a fixed name, and `void`. -/
inductive Prim where
  | bool | int8 | int16 | int32 | int64 | uint8 | uint16 | uint32 | uint64
  | float16 | float32 | float64 | complex64 | complex128 | object | void
  deriving DecidableEq, Repr

/-- A NumPy dtype. `str n`/`bytes n` are `U<n>`/`S<n>`; a field of a structured dtype has a name, the shape of a
sub-array dtype (`t.shape`, mostly empty) and its base dtype (`t.base`). Byte order, offsets and the `vlen` metadata of
object dtypes are ignored. -/
inductive DType where
  | prim (p : Prim)
  | datetime (unit : Str)
  | timedelta (unit : Str)
  | bytes (n : Nat)
  | str (n : Nat)
  | struct (fields : List (Str × List Nat × DType))
  deriving Repr, Inhabited

/-- `dtype.itemsize` of NumPy, for the dtypes with a fixed name (64-bit pointers) -/
def Prim.itemsize : Prim → Nat
  | .bool | .int8 | .uint8 => 1
  | .int16 | .uint16 | .float16 => 2
  | .int32 | .uint32 | .float32 => 4
  | .int64 | .uint64 | .float64 | .complex64 | .object => 8
  | .complex128 => 16
  | .void => 0

mutual
/-- `dtype.itemsize` of NumPy: points in time and time deltas take eight bytes, a character four, and the fields of a
structured dtype lie one after the other. -/
def DType.itemsize : (d : DType) → Nat
  | .prim p => p.itemsize
  | .datetime _ => 8
  | .timedelta _ => 8
  | .bytes n => n
  | .str n => 4 * n
  | .struct fs => fieldsSize fs
termination_by structural d => d
/-- the fields -/
def fieldsSize : (l : List (Str × List Nat × DType)) → Nat
  | [] => 0
  | (_, sh, d) :: r => sh.foldl (· * ·) 1 * d.itemsize + fieldsSize r
termination_by structural l => l
end

/-- `np.dtype(name)` for the names of the sized types: coretypes.py:806-815 (with its renaming of the complex types).
NumPy rejects every other name with `TypeError`. -/
def npDtypeTable : List (Str × Prim) :=
  [(py"bool", .bool), (py"int8", .int8), (py"int16", .int16), (py"int32", .int32), (py"int64", .int64),
   (py"uint8", .uint8), (py"uint16", .uint16), (py"uint32", .uint32), (py"uint64", .uint64),
   (py"float16", .float16), (py"float32", .float32), (py"float64", .float64),
   (py"complex[float32]", .complex64), (py"complex[float64]", .complex128),
   (py"complex64", .complex64), (py"complex128", .complex128), (py"object", .object), (py"void", .void)]

/-- The value `Type.lookup_type(dt.name)` (coretypes.py:780) for the dtypes with a fixed name, from the registrations
at coretypes.py:1172-1263. -/
def Prim.toTy : Prim → Ty
  | .bool => tBool | .int8 => tInt8 | .int16 => tInt16 | .int32 => tInt32 | .int64 => tInt64
  | .uint8 => tUint8 | .uint16 => tUint16 | .uint32 => tUint32 | .uint64 => tUint64
  | .float16 => tFloat16 | .float32 => tFloat32 | .float64 => tFloat64
  | .complex64 => tComplex64 | .complex128 => tComplex128 | .object => tObject | .void => tVoid

/-- `Decimal.to_numpy_dtype`: coretypes.py:479-506 -/
def decimalDtype (precision scale : Int) : Except PyErr Prim :=
  if scale = 0 then
    if precision ≤ 2 then .ok .int8
    else if precision ≤ 4 then .ok .int16
    else if precision ≤ 9 then .ok .int32
    else if precision ≤ 18 then .ok .int64
    else .error .typeError
  else .ok .float64

/-- `String.to_numpy_dtype`: coretypes.py:423-441; a negative length is rejected by NumPy -/
def stringDtype (fixlen : Option Int) (enc : Str) : Except PyErr DType :=
  match fixlen with
  | none => .ok (.prim .object)
  | some n =>
    if n = 0 then .ok (.prim .object)
    else if n < 0 then .error .typeError
    else if enc = py"A" then .ok (.bytes n.toNat) else .ok (.str n.toNat)

/-- `np.dtype([(name, dtype), …])`: an empty name is replaced by `f<i>`; a repeated name raises `ValueError`. -/
def npStruct (fs : List (Str × DType)) : Except PyErr DType :=
  let named := fs.zipIdx.map fun (p, i) => (if p.1.isEmpty then py"f" ++ natStr i else p.1, ([] : List Nat), p.2)
  if (named.map (·.1)).Nodup then .ok (.struct named) else .error .valueError

/-- the dimensions of `to_numpy` (coretypes.py:1307-1315) -/
def toNumpyDims : List Ty → Except PyErr (List Int)
  | [] => .ok []
  | [_] => .ok []
  | d :: q :: ps => do
    let n ← (match d with
      | .fixed n => (.ok (n : Int) : Except PyErr Int)
      | .typevar _ => .ok (-1)
      | _ => .error .typeError)
    let r ← toNumpyDims (q :: ps)
    .ok (n :: r)

/-- Which function is asked for the dtype of `t`. -/
inductive DtMode where
  /-- the method `t.to_numpy_dtype()` -/
  | method
  /-- the module function `to_numpy_dtype(t)`, coretypes.py:1284-1289: that of `t.measure` -/
  | measure
  /-- `to_numpy(t)[1]`, coretypes.py:1292-1322 -/
  | full

mutual
/-- The dtype of a datashape. The method: coretypes.py:172-173 (`Mono`: `TypeError`), 220-221 `Date`,
264-265 `DateTime`, 318-319 `TimeDelta`, 423-441 `String`, 479-506 `Decimal`, 743-746 `Option`, 806-815 `CType`,
912-913 `Map` (the key's), 1079-1084 `Record`, 1154-1159 `Tuple`. The modes only differ on a `DataShape`. -/
def toDtype : (t : Ty) → DtMode → Except PyErr DType
  | .ctype n _ _, _ => (match npDtypeTable.lookup n with
    | some p => .ok (.prim p)
    | none => .error .typeError)
  | .date, _ => .ok (.datetime (py"D"))
  | .datetime _, _ => .ok (.datetime (py"us"))
  | .timedelta u, _ => .ok (.timedelta u)
  | .string n e, _ => stringDtype n e
  | .decimal p s, _ => (decimalDtype p s).map .prim
  | .option t, _ => (match t with
    | .date => .ok (.datetime (py"D"))
    | .datetime _ => .ok (.datetime (py"us"))
    | .timedelta u => .ok (.timedelta u)
    | _ => .error .typeError)
  | .map k _, _ => toDtype k .measure
  | .record fs, _ => do npStruct (← toDtypeF fs)
  | .tuple ts, _ => do npStruct (← toDtypeL ts 0)
  | .dshape _, .method => .error .typeError
  | .dshape ps, .measure => toDtypeLast ps .full
  | .dshape ps, .full => do
    let _ ← toNumpyDims ps
    toDtypeLast ps .method
  | _, _ => .error .typeError
termination_by structural t => t
/-- the dtype of the last parameter of a `DataShape` -/
def toDtypeLast : (ps : List Ty) → DtMode → Except PyErr DType
  | [], _ => .error .typeError
  | [m], k => toDtype m k
  | _ :: q :: ps, k => toDtypeLast (q :: ps) k
termination_by structural l => l
/-- the fields of a record (coretypes.py:1083-1084) -/
def toDtypeF : (l : List (Str × Ty)) → Except PyErr (List (Str × DType))
  | [] => .ok []
  | (n, t) :: r => do
    let d ← toDtype t .measure
    let rest ← toDtypeF r
    .ok ((n, d) :: rest)
termination_by structural l => l
/-- the components of a tuple, named `f0`, `f1`, … (coretypes.py:1158-1159) -/
def toDtypeL : (l : List Ty) → Nat → Except PyErr (List (Str × DType))
  | [], _ => .ok []
  | t :: r, i => do
    let d ← toDtype t .measure
    let rest ← toDtypeL r (i + 1)
    .ok ((py"f" ++ natStr i, d) :: rest)
termination_by structural l => l
end

/-- the module function `to_numpy_dtype(ds)`: coretypes.py:1284-1289 -/
def toNumpyDtype (t : Ty) : Except PyErr DType := toDtype t .measure

/-- `to_numpy(ds)`: coretypes.py:1292-1322 -/
def toNumpy (t : Ty) : Except PyErr (List Int × DType) :=
  match t with
  | .dshape ps => do
    let sh ← toNumpyDims ps
    let d ← toDtypeLast ps .method
    .ok (sh, d)
  | t => do
    let d ← toDtype t .method
    .ok ([], d)

/-- `CType.from_numpy_dtype(dt)`: coretypes.py:763-794. The unsized dtype `S` is called `bytes`, which is registered at
coretypes.py:1277. Structured dtypes are called `void` with the number of their bits, which is not registered, and raise
`NotImplementedError`; those of size 0 are called `void`. (`Model/Registry.lean` has the registry.) -/
def fromDtype : DType → Except PyErr Ty
  | .prim p => .ok p.toTy
  | .datetime u => if u = py"D" ∨ u = py"Y" ∨ u = py"M" ∨ u = py"W" then .ok .date else .ok (.datetime none)
  | .timedelta u => mkTimeDelta u
  | .str n => mkString (some n) (some (py"U32"))
  | .bytes n => if n = 0 then .ok .bytes else mkString (some n) (some (py"ascii"))
  | .struct [] => .ok tVoid
  | .struct (f :: fs) => if (DType.struct (f :: fs)).itemsize = 0 then .ok tVoid else .error .notImplemented

/-- `DataShape(*tuple(map(Fixed, shape)) + (measure,))`, or the measure alone for an empty shape:
coretypes.py:1351-1353 -/
def withShape (shape : List Int) (m : Ty) : Except PyErr Ty :=
  if shape.isEmpty then .ok m
  else do
    let dims ← shape.mapM mkFixed
    mkDS (dims ++ [m])

mutual
/-- `from_numpy(shape, dt)`: coretypes.py:1325-1353 -/
def fromNumpy : (d : DType) → List Int → Except PyErr Ty
  | .bytes n, sh => do withShape sh (← mkString (some n) (some (py"A")))
  | .str n, sh => do withShape sh (← mkString (some n) (some (py"U32")))
  | .struct (f :: fs), sh => do
    let r ← fromNumpyF (f :: fs)
    withShape sh (← mkRecord r)
  | d, sh => do withShape sh (← fromDtype d)
termination_by structural d => d
/-- the fields of a structured dtype: coretypes.py:1343-1347 -/
def fromNumpyF : (l : List (Str × List Nat × DType)) → Except PyErr (List (Str × Ty))
  | [] => .ok []
  | (n, sh, d) :: r => do
    let t ← fromNumpy d (sh.map fun (k : Nat) => (k : Int))
    let rest ← fromNumpyF r
    .ok ((n, t) :: rest)
termination_by structural l => l
end

/-- `np.issubdtype(dt, np.number)`: integers, floats, complex numbers, and time deltas (which NumPy derives from
signed integers) -/
def DType.isNumber : DType → Bool
  | .prim .bool | .prim .object | .prim .void => false
  | .prim _ => true
  | .timedelta _ => true
  | _ => false

end DS
