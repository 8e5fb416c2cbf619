import Verif.Model.Printer

/-
The constructors of datashape/coretypes.py, on values that are already datashapes, strings or ints.
-/
namespace DS

/-! ### Strings -/

/-- `s.strip()` -/
def strip (s : Str) : Str := ((s.dropWhile isSpace).reverse.dropWhile isSpace).reverse

/-- `s.rstrip('s')` -/
def rstripS (s : Str) : Str := (s.reverse.dropWhile (· == 115)).reverse

/-- `_units` (coretypes.py:268) -/
def timeUnits : List Str :=
  [py"ns", py"us", py"ms", py"s", py"m", py"h", py"D", py"W", py"M", py"Y"]

/-- `_unit_aliases` (coretypes.py:271-281) -/
def unitAliases : List (Str × Str) :=
  [(py"year", py"Y"), (py"week", py"W"), (py"day", py"D"), (py"date", py"D"), (py"hour", py"h"),
   (py"second", py"s"), (py"millisecond", py"ms"), (py"microsecond", py"us"), (py"nanosecond", py"ns")]

/-- Recursion of `normalize_time_unit` (coretypes.py:284-305), with fuel. -/
def normalizeAux : Nat → Str → Except PyErr Str
  | 0, _ => .error .fuel
  | fuel + 1, s0 =>
    let s := strip s0
    if s ∈ timeUnits then .ok s
    else match unitAliases.lookup s with
      | some u => .ok u
      | none => match s.getLast? with
        | none => .error .indexError
        | some c => if c = 115 ∧ s.length > 2 then normalizeAux fuel (rstripS s) else .error .valueError

/-- `normalize_time_unit(s)`: coretypes.py:284-305. The fuel is always enough
(`normalize_no_fuel` in Proofs/Strings.lean). -/
def normalizeTimeUnit (s : Str) : Except PyErr Str := normalizeAux (s.length + 1) s

/-- `_canonical_string_encodings` (coretypes.py:353-368) -/
def encodings : List (Str × Str) :=
  [(py"A", py"A"), (py"ascii", py"A"), (py"U8", py"U8"), (py"utf-8", py"U8"), (py"utf_8", py"U8"),
   (py"utf8", py"U8"), (py"U16", py"U16"), (py"utf-16", py"U16"), (py"utf_16", py"U16"),
   (py"utf16", py"U16"), (py"U32", py"U32"), (py"utf-32", py"U32"), (py"utf_32", py"U32"),
   (py"utf32", py"U32")]

/-- `String(...)` after the arguments have been sorted into `fixlen` and `encoding`
(coretypes.py:383-404; `none` for a missing encoding, and the empty string is falsy). -/
def mkString (fixlen : Option Int) (encoding : Option Str) : Except PyErr Ty :=
  let e := match encoding with
    | none => py"U8"
    | some e => if e.isEmpty then py"U8" else e
  match encodings.lookup e with
  | some c => .ok (.string fixlen c)
  | none => .error .valueError

/-- `TimeDelta(unit)` for a `str` unit: coretypes.py:308-313 -/
def mkTimeDelta (unit : Str) : Except PyErr Ty :=
  match normalizeTimeUnit unit with
  | .ok u => .ok (.timedelta u)
  | .error e => .error e

/-- `Fixed(i)`: coretypes.py:833-840 -/
def mkFixed (i : Int) : Except PyErr Ty :=
  if i < 0 then .error .valueError else .ok (.fixed i.toNat)

/-- `str.isupper()` of a one-character string -/
def Env.isUpper (env : Env) (c : Nat) : Bool := if c < 128 then isUpperA c else env.upper c

/-- `TypeVar(symbol)`: coretypes.py:873-877 -/
def mkTypeVar (env : Env) (s : Str) : Except PyErr Ty :=
  match s with
  | [] => .error .indexError
  | c :: _ => if env.isUpper c then .ok (.typevar s) else .error .valueError

/-- `Ellipsis(TypeVar(name))`: type_symbol_table.py:50-51 -/
def mkEllipsis (env : Env) (s : Str) : Except PyErr Ty :=
  match mkTypeVar env s with
  | .ok _ => .ok (.ellipsis (some s))
  | .error e => .error e

/-- `_launder(x)` for a datashape `x`: coretypes.py:931-936 -/
def launderTy : Ty → Ty
  | .dshape [t] => t
  | t => t

/-- The checks of `DataShape.__init__` on laundered parameters: coretypes.py:548-561. -/
def checkDS (ps : List Ty) : Except PyErr Ty :=
  match ps.getLast? with
  | none => .error .valueError
  | some m =>
    if m.cls = some .dimension then .error .typeError
    else if ps.dropLast.any fun d => d.cls == some .measure then .error .typeError
    else .ok (.dshape ps)

/-- `DataShape(*params)` for datashape parameters: coretypes.py:542-566, without `name=`. -/
def mkDS (ps : List Ty) : Except PyErr Ty := checkDS (ps.map launderTy)

/-- `Option(ds)`: coretypes.py:729-730 -/
def mkOption (t : Ty) : Ty := .option (launderTy t)

/-- `Map(key, value)`: coretypes.py:903-905 -/
def mkMap (k v : Ty) : Ty := .map (launderTy k) (launderTy v)

/-- `Record(fields)` for string names and datashape types: coretypes.py:1040-1061 -/
def mkRecord (fs : List (Str × Ty)) : Except PyErr Ty :=
  if (fs.map (·.1)).Nodup then .ok (.record (fs.map fun f => (f.1, launderTy f.2)))
  else .error .valueError

/-- `DataShape(ds) if not isinstance(ds, DataShape) else ds`: coretypes.py:1147 -/
def wrapDS (t : Ty) : Except PyErr Ty := if t.isDShape then .ok t else mkDS [t]

/-- `Tuple(dshapes)` for datashapes: coretypes.py:1140-1149 -/
def mkTuple (ts : List Ty) : Except PyErr Ty :=
  match ts.mapM wrapDS with
  | .ok l => .ok (.tuple l)
  | .error e => .error e

/-- `Units(unit, tp)`: coretypes.py:327-337 -/
def mkUnits (unit : Str) (tp : Option Ty) : Except PyErr Ty :=
  match tp with
  | none => .ok (.units unit (.dshape [tFloat64]))
  | some t => if t.isDShape then .ok (.units unit t) else .error .typeError

/-! ### Multiplication (coretypes.py:142-160, 610-613) -/

/-- An operand of `*`: a datashape, an int, or a string (which is parsed first). -/
inductive Operand where
  | ty (t : Ty)
  | int (i : Int)

/-- Convert ints with `Fixed` (coretypes.py:146-147, 157-158, 611-612). -/
def Operand.toTy : Operand → Except PyErr Ty
  | .ty t => .ok t
  | .int i => mkFixed i

/-- `DataShape.__rmul__(self, other)`: `DataShape(other, *self)` (coretypes.py:610-613). -/
def rmulDS (other : Operand) (ps : List Ty) : Except PyErr Ty := do
  let o ← other.toTy
  mkDS (o :: ps)

/-- `a * b` for datashapes and ints, following Python's dispatch: `int * ds` calls `ds.__rmul__`;
`ds * x` calls `Mono.__mul__` (coretypes.py:142-151), which `DataShape` inherits;
`int * int` is not a datashape operation (`unmodelled`). -/
def mul : Operand → Operand → Except PyErr Ty
  | .int _, .int _ => .error .unmodelled
  | .int i, .ty (.dshape ps) => rmulDS (.int i) ps
  | .int i, .ty b => do mkDS [← mkFixed i, b]
  | .ty a, .ty (.dshape ps) => rmulDS (.ty a) ps
  | .ty a, o => do mkDS [a, ← o.toTy]

end DS
