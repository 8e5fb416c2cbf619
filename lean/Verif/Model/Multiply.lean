import Verif.Model.Build

/-
`a * b` where at least one operand is a datashape (`Mono.__mul__`, `Mono.__rmul__`, `DataShape.__rmul__`), for operands of
any kind.

Python calls `a.__mul__(b)` if `a` is a datashape: no datashape class that overrides `__rmul__` is a proper subclass of
the class of another instance. Otherwise it calls `b.__rmul__(a)`: ints and the other operands do not know datashapes,
and `str`, `list` and `tuple` have no number protocol, so the reflected method is tried before repetition.
`PVal.other` is a value of another class whose own `*` does not accept a datashape.
-/
namespace DS

/-- `d.__rmul__(a)` for a datashape `d`: coretypes.py:153-160 (`Mono`) when `a` is not a string, 610-613 (`DataShape`) for
every `a`. `DataShape(a, *d)` converts an int with `Fixed`, as the call of `Fixed` in front of it does. -/
def rmulParts (nest : Str → Except PyErr Ty) (a : PVal) : Ty → Except PyErr Ty
  | .dshape ps => dataShape nest (a :: ps.map .ty)
  | d => dataShape nest [a, .ty d]

/-- `t * b`, `Mono.__mul__`: coretypes.py:142-151 -/
def mulLeft (nest : Str → Except PyErr Ty) (t : Ty) : PVal → Except PyErr Ty
  | .str s => do
    let d ← nest s
    rmulParts nest (.ty t) d
  | .ty (.dshape ps) => rmulParts nest (.ty t) (.dshape ps)
  | b => dataShape nest [.ty t, b]

/-- `a * b` for a datashape `b` and another `a`: coretypes.py:153-160, 610-613. `Mono.__rmul__` turns a string around:
`self * datashape.dshape(other)`. -/
def mulRight (nest : Str → Except PyErr Ty) (a : PVal) : Ty → Except PyErr Ty
  | .dshape ps => rmulParts nest a (.dshape ps)
  | t => match a with
    | .str s => do
      let d ← nest s
      mulLeft nest t (.ty d)
    | a => rmulParts nest a t

/-- `a * b`: the left operand is asked first; `unmodelled` if neither is a datashape. -/
def mulObj (nest : Str → Except PyErr Ty) : PVal → PVal → Except PyErr Ty
  | .ty t, b => mulLeft nest t b
  | a, .ty t => mulRight nest a t
  | _, _ => .error .unmodelled

end DS
