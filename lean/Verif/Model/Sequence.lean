import Verif.Model.Subshape
import Verif.Model.Typesets

/-
Datashapes as sequences: `len(ds)`, `ds[i]`, `ds[a:b:c]`, `list(ds)`, `*ds`, `bool(ds)`, and the attributes that are
defined from them.
-/
namespace DS

/-- `len(t)`: coretypes.py:108-109 (`Mono`), 568-569 (`DataShape`); typesets.py:60-61 (`TypeSet`).
`bool(t)` is `len(t) != 0`, since no class defines `__bool__`. -/
def Ty.len : Ty → Nat
  | .dshape ps => ps.length
  | .typeset o n => tsLen (.typeset o n)
  | _ => 1

/-- `t[i]` for an int: coretypes.py:111-112 (`Mono`), 571-572 (`DataShape`), 1086-1087 (`Record`: a dict lookup, and
the keys are strings, so an int raises `KeyError`). -/
def Ty.item (t : Ty) (i : Int) : Except PyErr Ty :=
  match t with
  | .dshape ps => pyGet ps i
  | .record _ => .error .keyError
  | t => pyGet [t] i

/-- `t[a:b:c]`, as above; a tuple of the parameters for a `DataShape`, a list for other types. For a record the slice is
used as a dict key, which raises `TypeError` (slices are not hashable, up to Python 3.11). -/
def Ty.itemSlice (t : Ty) (a b c : Option Int) : Except PyErr (List Ty) :=
  match t with
  | .dshape ps => pySlice ps a b c
  | .record _ => .error .typeError
  | t => pySlice [t] a b c

/-- The iteration protocol of Python for an object without `__iter__`, as in `list(t)`, `f(*t)` and `for p in t`: the
items `0, 1, 2, …` until `IndexError`; any other exception is passed on. `Iterates get i r` says that the iteration that
is about to ask for item `i` ends with the result `r`. No class but `TypeSet` defines `__iter__`. -/
inductive Iterates (get : Int → Except PyErr Ty) : Nat → Except PyErr (List Ty) → Prop where
  | stop {i : Nat} : get i = .error .indexError → Iterates get i (.ok [])
  | raise {i : Nat} {e : PyErr} : get i = .error e → e ≠ .indexError → Iterates get i (.error e)
  | next {i : Nat} {x : Ty} {l : List Ty} : get i = .ok x → Iterates get (i + 1) (.ok l) → Iterates get i (.ok (x :: l))
  | nextRaise {i : Nat} {x : Ty} {e : PyErr} : get i = .ok x → Iterates get (i + 1) (.error e) → Iterates get i (.error e)

/-- `list(t)` -/
def Ty.listResult (t : Ty) (r : Except PyErr (List Ty)) : Prop := Iterates t.item 0 r

/-- `f.restype`: coretypes.py:886-888 -/
def funcRestype (ps : List Ty) : Except PyErr Ty := pyGet ps (-1)

/-- `f.argtypes`: coretypes.py:890-892 -/
def funcArgtypes (ps : List Ty) : Except PyErr (List Ty) := pySlice ps none (some (-1)) none

/-- `t.itemsize`: coretypes.py:736-738 (`Option`), 796-799 (`CType`); no other class has it -/
def Ty.size : Ty → Except PyErr Nat
  | .ctype _ i _ => .ok i
  | .option t => t.size
  | _ => .error .attributeError

/-- `t.alignment`: coretypes.py:801-804 (`CType`); no other class has it -/
def Ty.alignment : Ty → Except PyErr Nat
  | .ctype _ _ a => .ok a
  | _ => .error .attributeError

/-- The sized types of coretypes.py:1172-1265; constructing one registers its name (coretypes.py:757-761). -/
def ctypes : List Ty :=
  [tBool, tChar, tInt8, tInt16, tInt32, tInt64, tUint8, tUint16, tUint32, tUint64, tFloat16, tFloat32, tFloat64,
   tComplex64, tComplex128, tVoid, tObject]

/-- `int(d)`, `operator.index(d)` and hence the use of a dimension as a number, as in `range(d)`: coretypes.py:842-846
(`Fixed`); no other class has it -/
def Ty.toInt : Ty → Except PyErr Int
  | .fixed n => .ok n
  | _ => .error .typeError

/-- `_dimensions(ds)`: predicates.py:82-85, for a datashape -/
def Ty.ndim (t : Ty) : Nat := t.shape.length

end DS
