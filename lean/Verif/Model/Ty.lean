import Verif.Model.Basic

/-
The values of datashape/coretypes.py: every instance of `Mono`.
-/
namespace DS

/-- One constructor per concrete class of datashape/coretypes.py (and
datashape/typesets.py:17 `TypeSet`), holding the attributes named in `__slots__`
(or `_parameters`).  Python lists/tuples are `List`.

* `units`: lines 322-343; `tp` is a `DataShape`
* `string`: 371-441 (`fixlen`, `encoding`); a bool given as `fixlen` is identified with the int it equals
* `decimal`: 444-506; simplification: precision and scale are Python ints
* `fixed`: 825-855; the constructor guarantees `val ≥ 0`
* `ellipsis`: 186-205; the optional type variable is represented by its symbol
* `func`: 883-897; `params` is `argtypes + (restype,)`
* `categorical`: 1103-1129; simplification: categories are ints, strs or bools
* `dshape`: 509-713 `DataShape`; simplification: the `name=` keyword is not stored -/
inductive Ty where
  | ctype (name : Str) (itemsize alignment : Nat)
  | null
  | date
  | time (tz : Option Str)
  | datetime (tz : Option Str)
  | timedelta (unit : Str)
  | units (unit : Str) (tp : Ty)
  | bytes
  | string (fixlen : Option Int) (encoding : Str)
  | decimal (precision scale : Int)
  | json
  | fixed (val : Nat)
  | var
  | typevar (symbol : Str)
  | ellipsis (typevar : Option Str)
  | option (ty : Ty)
  | map (key value : Ty)
  | func (params : List Ty)
  | record (fields : List (Str × Ty))
  | tuple (dshapes : List Ty)
  | categorical (categories : List Lit) (type : Ty) (ordered : Bool)
  | typeset (order : List Ty) (name : Option Str)
  | dshape (params : List Ty)
  deriving Repr, Inhabited

/-- Induction principle for `Ty` with membership hypotheses for the nested lists. -/
theorem Ty.ind {P : Ty → Prop}
    (ctype : ∀ n i a, P (.ctype n i a)) (null : P .null) (date : P .date)
    (time : ∀ tz, P (.time tz)) (datetime : ∀ tz, P (.datetime tz))
    (timedelta : ∀ u, P (.timedelta u)) (units : ∀ u tp, P tp → P (.units u tp))
    (bytes : P .bytes) (string : ∀ f e, P (.string f e)) (decimal : ∀ p s, P (.decimal p s))
    (json : P .json) (fixed : ∀ n, P (.fixed n)) (var : P .var)
    (typevar : ∀ s, P (.typevar s)) (ellipsis : ∀ s, P (.ellipsis s))
    (option : ∀ t, P t → P (.option t)) (map : ∀ k v, P k → P v → P (.map k v))
    (func : ∀ ps, (∀ t ∈ ps, P t) → P (.func ps))
    (record : ∀ fs : List (Str × Ty), (∀ f ∈ fs, P f.2) → P (.record fs))
    (tuple : ∀ ps, (∀ t ∈ ps, P t) → P (.tuple ps))
    (categorical : ∀ c t o, P t → P (.categorical c t o))
    (typeset : ∀ ps n, (∀ t ∈ ps, P t) → P (.typeset ps n))
    (dshape : ∀ ps, (∀ t ∈ ps, P t) → P (.dshape ps)) : ∀ t, P t := by
  intro t
  refine Ty.rec (motive_1 := P) (motive_2 := fun ts => ∀ t ∈ ts, P t)
    (motive_3 := fun fs => ∀ f ∈ fs, P f.2) (motive_4 := fun f => P f.2)
    ctype null date time datetime timedelta units bytes string decimal json fixed var typevar
    ellipsis option map func record tuple categorical typeset dshape ?_ ?_ ?_ ?_ ?_ t
  · intro t h; cases h
  · intro a l ha hl t h
    cases h with
    | head => exact ha
    | tail _ h => exact hl t h
  · intro t h; cases h
  · intro a l ha hl t h
    cases h with
    | head => exact ha
    | tail _ h => exact hl t h
  · intro a b h; exact h

/-- `Mono.parameters` restricted to a `DataShape` (coretypes.py:79-84). -/
def Ty.params : Ty → List Ty
  | .dshape ps => ps
  | _ => []

/-- `.shape`: coretypes.py:104-106 (`Mono`), 584-586 (`DataShape`), 732-734 (`Option`). -/
def Ty.shape : Ty → List Ty
  | .dshape ps => ps.dropLast
  | .option t => t.shape
  | _ => []

/-- `.measure`: coretypes.py:126-129 (`Mono`), 588-590 (`DataShape`).
`DataShape()` is rejected by the constructor, so `dshape []` never occurs; it is its own measure here. -/
def Ty.measure : Ty → Ty
  | .dshape ps => ps.getLast?.getD (.dshape [])
  | t => t

/-- `isinstance(t, DataShape)` -/
def Ty.isDShape : Ty → Bool
  | .dshape _ => true
  | _ => false

/-- `isinstance(t, Unit)` (coretypes.py:176 and its subclasses). -/
def Ty.isUnit : Ty → Bool
  | .ctype .. | .null | .date | .time _ | .datetime _ | .timedelta _ | .units .. | .bytes
  | .string .. | .decimal .. | .fixed _ | .var | .typevar _ | .typeset .. => true
  | _ => false

/-- `isinstance(t, Record)` -/
def Ty.isRecord : Ty → Bool
  | .record _ => true
  | _ => false

/-- `isinstance(t, Option)` -/
def Ty.isOption : Ty → Bool
  | .option _ => true
  | _ => false

/-- `isinstance(t, Ellipsis)` -/
def Ty.isEllipsis : Ty → Bool
  | .ellipsis _ => true
  | _ => false

/-- `isinstance(t, Var)` -/
def Ty.isVar : Ty → Bool
  | .var => true
  | _ => false

/-- The class attribute `cls` (coretypes.py:32-34 and the class bodies); `none` when the class has none. -/
inductive Cls where
  | dimension
  | measure
  deriving DecidableEq, Repr

/-- Class attribute `cls`: `Fixed`, `Var` are `DIMENSION`; `Null`, `Ellipsis`, `TypeVar`, `Option`,
`Function`, `Map`, `TypeSet`, `DataShape` have none; all others are `MEASURE`. -/
def Ty.cls : Ty → Option Cls
  | .fixed _ | .var => some .dimension
  | .null | .ellipsis _ | .typevar _ | .option _ | .func _ | .map .. | .typeset .. | .dshape _ => none
  | _ => some .measure

/-! ### The module-level constants (coretypes.py:1172-1275), 64-bit build -/

/-- line 1172 -/
def tBool : Ty := .ctype (py"bool") 1 1
/-- line 1173 -/
def tChar : Ty := .ctype (py"char") 1 1
/-- line 1175 -/
def tInt8 : Ty := .ctype (py"int8") 1 1
/-- line 1176 -/
def tInt16 : Ty := .ctype (py"int16") 2 2
/-- line 1177 -/
def tInt32 : Ty := .ctype (py"int32") 4 4
/-- line 1178 -/
def tInt64 : Ty := .ctype (py"int64") 8 8
/-- line 1184 -/
def tUint8 : Ty := .ctype (py"uint8") 1 1
/-- line 1185 -/
def tUint16 : Ty := .ctype (py"uint16") 2 2
/-- line 1186 -/
def tUint32 : Ty := .ctype (py"uint32") 4 4
/-- line 1187 -/
def tUint64 : Ty := .ctype (py"uint64") 8 8
/-- line 1189 -/
def tFloat16 : Ty := .ctype (py"float16") 2 2
/-- line 1190 -/
def tFloat32 : Ty := .ctype (py"float32") 4 4
/-- line 1191 -/
def tFloat64 : Ty := .ctype (py"float64") 8 8
/-- line 1198 -/
def tComplex64 : Ty := .ctype (py"complex[float32]") 8 4
/-- line 1200 -/
def tComplex128 : Ty := .ctype (py"complex[float64]") 16 8
/-- line 1262 -/
def tVoid : Ty := .ctype (py"void") 0 1
/-- line 1263 -/
def tObject : Ty := .ctype (py"object") 8 8
/-- `string = String()`, line 1271 -/
def tString : Ty := .string none (py"U8")
/-- `timedelta_ = TimeDelta()`, line 1215 -/
def tTimedelta : Ty := .timedelta (py"us")

end DS
