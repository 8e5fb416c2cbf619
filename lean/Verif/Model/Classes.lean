import Verif.Model.Build

/-
The type classes of datashape/coretypes.py called from Python with arbitrary values.
-/
namespace DS

/-- A call of a type class. `none` as an `Option` is an argument that is left out; `PVal.none` is `None`. -/
inductive ClassCall where
  | time (tz : Option PVal)
  | datetime (tz : Option PVal)
  | timedelta (unit : Option PVal)
  | units (unit : PVal) (tp : Option PVal)
  | string (args : List PVal)
  | fixed (i : PVal)
  | typevar (symbol : PVal)
  | option (ds : PVal)
  | map (key value : PVal)
  | tuple (dshapes : List PVal)

/-- the check of the parameter `tz`: coretypes.py:230-234, 251-256 -/
def tzParam : Option PVal → Except PyErr (Option Str)
  | none | some .none => .ok none
  | some (.str s) => .ok (some s)
  | some _ => .error .typeError

/-- `str(unit)`, as in coretypes.py:313; `str` of an unknown object is not modelled. -/
def pvalStr (env : Env) : PVal → Except PyErr Str
  | .none => .ok (py"None")
  | .str s => .ok s
  | .int i => .ok (intStr i)
  | .ty t => .ok (render env t none)
  | .other => .error .unmodelled

/-- `TimeDelta(unit='us')`: coretypes.py:312-313 -/
def timedeltaClass (env : Env) (unit : Option PVal) : Except PyErr Ty := do
  let s ← pvalStr env (unit.getD (.str (py"us")))
  mkTimeDelta s

/-- `Units(unit, tp=None)`: coretypes.py:327-337 -/
def unitsClass (unit : PVal) (tp : Option PVal) : Except PyErr Ty :=
  match unit with
  | .str u => match tp with
    | none | some .none => mkUnits u none
    | some (.ty t) => mkUnits u (some t)
    | some _ => .error .typeError
  | _ => .error .typeError

/-- the encoding of `String(fixlen, encoding)`, coretypes.py:395-402: falsy values mean the default, values that are not
strings are not in the table. A `Ty` is truthy (`Mono.__len__` is 1) unless it is an empty `TypeSet`. An unknown object is
not modelled. -/
def stringWith (fixlen : Option Int) : PVal → Except PyErr Ty
  | .none => mkString fixlen none
  | .str e => mkString fixlen (some e)
  | .int i => if i = 0 then mkString fixlen none else .error .valueError
  | .ty (.typeset [] _) => mkString fixlen none
  | .ty _ => .error .valueError
  | .other => .error .unmodelled

/-- `String(*args)`: coretypes.py:383-404. A `fixlen` that is neither an int nor `None` is stored unchecked, which is not
modelled. -/
def stringClass : List PVal → Except PyErr Ty
  | [] => mkString none none
  | [.str e] => mkString none (some e)
  | [.int i] => mkString (some i) none
  | [_] => .error .unboundLocal
  | [.none, e] => stringWith none e
  | [.int i, e] => stringWith (some i) e
  | [_, _] => .error .unmodelled
  | _ => .error .unboundLocal

/-- `Fixed(i)`: coretypes.py:833-840, with `operator.index`, which a `Fixed` has too (842-843). An unknown object is taken
to have no `__index__`. -/
def fixedClass : PVal → Except PyErr Ty
  | .int i => mkFixed i
  | .ty (.fixed n) => .ok (.fixed n)
  | _ => .error .typeError

/-- `TypeVar(symbol)`: coretypes.py:873-877. `symbol[0]` is a datashape for a datashape (108-109, 571-572), except that a
`Record` looks up the name `0` (1086-1087). -/
def typevarClass (env : Env) : PVal → Except PyErr Ty
  | .str s => mkTypeVar env s
  | .ty (.record _) => .error .keyError
  | .ty _ => .error .attributeError
  | .none | .int _ => .error .typeError
  | .other => .error .unmodelled

/-- `Option(ds)`: coretypes.py:729-730 -/
def optionClass (nest : Str → Except PyErr Ty) (v : PVal) : Except PyErr Ty := do
  let t ← v.launder nest
  .ok (.option t)

/-- `Map(key, value)`: coretypes.py:903-905 -/
def mapClass (nest : Str → Except PyErr Ty) (k v : PVal) : Except PyErr Ty := do
  let a ← k.launder nest
  let b ← v.launder nest
  .ok (.map a b)

/-- `DataShape(ds) if not isinstance(ds, DataShape) else ds`: coretypes.py:1147 -/
def tuplePart (nest : Str → Except PyErr Ty) : PVal → Except PyErr Ty
  | .ty (.dshape ps) => .ok (.dshape ps)
  | v => dataShape nest [v]

/-- `Tuple(dshapes)`: coretypes.py:1140-1149 -/
def tupleClass (nest : Str → Except PyErr Ty) (vs : List PVal) : Except PyErr Ty := do
  let ts ← vs.mapM (tuplePart nest)
  .ok (.tuple ts)

/-- The call. `nest` is `datashape.dshape` on strings. -/
def callClass (env : Env) (nest : Str → Except PyErr Ty) : ClassCall → Except PyErr Ty
  | .time tz => do .ok (.time (← tzParam tz))
  | .datetime tz => do .ok (.datetime (← tzParam tz))
  | .timedelta u => timedeltaClass env u
  | .units u tp => unitsClass u tp
  | .string args => stringClass args
  | .fixed i => fixedClass i
  | .typevar s => typevarClass env s
  | .option v => optionClass nest v
  | .map k v => mapClass nest k v
  | .tuple vs => tupleClass nest vs

end DS
