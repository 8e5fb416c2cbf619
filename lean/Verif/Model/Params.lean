import Verif.Model.SymTab

/-
`Mono.parameters`, the constructors called with the parameters of an existing object, and the pickling protocol
(coretypes.py:60-84, 162-170, 712-715).
-/
namespace DS

/-- The concrete classes, in the order of the constructors of `Ty`. -/
inductive Klass where
  | ctype | null | date | time | datetime | timedelta | units | bytes | string | decimal | json | fixed | var | typevar
  | ellipsis | option | map | func | record | tuple | categorical | typeset | dshape
  deriving DecidableEq, Repr

/-- `type(t)` -/
def Ty.klass : Ty → Klass
  | .ctype .. => .ctype
  | .null => .null
  | .date => .date
  | .time _ => .time
  | .datetime _ => .datetime
  | .timedelta _ => .timedelta
  | .units .. => .units
  | .bytes => .bytes
  | .string .. => .string
  | .decimal .. => .decimal
  | .json => .json
  | .fixed _ => .fixed
  | .var => .var
  | .typevar _ => .typevar
  | .ellipsis _ => .ellipsis
  | .option _ => .option
  | .map .. => .map
  | .func _ => .func
  | .record _ => .record
  | .tuple _ => .tuple
  | .categorical .. => .categorical
  | .typeset .. => .typeset
  | .dshape _ => .dshape

/-- A parameter of a datashape: a Python value -/
inductive Param where
  | none
  | int (i : Int)
  | str (s : Str)
  | bool (b : Bool)
  | ty (t : Ty)
  | tys (l : List Ty)                -- a tuple of datashapes
  | lits (l : List Lit)              -- a tuple of literals
  | fields (l : List (Str × Ty))     -- a tuple of `(name, type)` pairs

/-- `None` or a string -/
def Param.ofStr : Option Str → Param
  | Option.none => .none
  | some s => .str s

/-- `None` or an int -/
def Param.ofInt : Option Int → Param
  | Option.none => .none
  | some i => .int i

/-- `t.parameters`: coretypes.py:79-84, with the `__slots__` of the classes; also `__getstate__` (162-163) -/
def Ty.parameters : Ty → List Param
  | .ctype n i a => [.str n, .int i, .int a]
  | .null => []
  | .date => []
  | .time z => [.ofStr z]
  | .datetime z => [.ofStr z]
  | .timedelta u => [.str u]
  | .units u t => [.str u, .ty t]
  | .bytes => []
  | .string n e => [.ofInt n, .str e]
  | .decimal p s => [.int p, .int s]
  | .json => []
  | .fixed n => [.int n]
  | .var => []
  | .typevar s => [.str s]
  | .ellipsis Option.none => [.none]
  | .ellipsis (some s) => [.ty (.typevar s)]
  | .option t => [.ty t]
  | .map k v => [.ty k, .ty v]
  | .func ps => ps.map .ty
  | .record fs => [.fields fs]
  | .tuple ts => [.tys ts]
  | .categorical c t o => [.lits c, .ty t, .bool o]
  | .typeset o n => [.tys o, .ofStr n]
  | .dshape ps => ps.map .ty

/-- a parameter that is a datashape -/
def Param.asTy : Param → Except PyErr Ty
  | .ty t => .ok t
  | _ => .error .unmodelled

/-- `cls(*params)`: the constructors, called with positional arguments of the kinds that `parameters` returns; other
arguments are outside the model. `registered` says which names `Type._registry` contains (coretypes.py:36-56).
`String`: 383-404. `Decimal`: 470-472. `Ellipsis`: 198-199. `Categorical`: 1110-1113 (a datashape is truthy).
`Function`, `Null` and the classes without slots use `Mono.__init__` (72-73). `TypeSet(order, name)` (typesets.py:24-28)
would take the tuple and the name for types, which is outside the model. -/
def construct (env : Env) (registered : Str → Bool) : Klass → List Param → Except PyErr Ty
  | .ctype, [.str n, .int i, .int a] =>
      if registered n then .error .typeError else .ok (.ctype n i.toNat a.toNat)
  | .null, [] => .ok .null
  | .date, [] => .ok .date
  | .time, [.none] => .ok (.time none)
  | .time, [.str s] => .ok (.time (some s))
  | .datetime, [.none] => .ok (.datetime none)
  | .datetime, [.str s] => .ok (.datetime (some s))
  | .timedelta, [.str u] => mkTimeDelta u
  | .units, [.str u, .ty t] => mkUnits u (some t)
  | .bytes, [] => .ok .bytes
  | .string, [.none, .str e] => mkString none (some e)
  | .string, [.int i, .str e] => mkString (some i) (some e)
  | .decimal, [.int p, .int s] => .ok (.decimal p s)
  | .json, [] => .ok .json
  | .fixed, [.int i] => mkFixed i
  | .var, [] => .ok .var
  | .typevar, [.str s] => mkTypeVar env s
  | .ellipsis, [.none] => .ok (.ellipsis none)
  | .ellipsis, [.ty (.typevar s)] => .ok (.ellipsis (some s))
  | .option, [.ty t] => .ok (mkOption t)
  | .map, [.ty k, .ty v] => .ok (mkMap k v)
  | .func, ps => do .ok (.func (← ps.mapM Param.asTy))
  | .record, [.fields fs] => mkRecord fs
  | .tuple, [.tys ts] => mkTuple ts
  | .categorical, [.lits c, .ty t, .bool o] => .ok (.categorical c t.measure o)
  | .dshape, ps => do mkDS (← ps.mapM Param.asTy)
  | _, _ => .error .unmodelled

/-- `__setstate__`: coretypes.py:165-170 (each slot gets the value at the same position, without any check or
conversion), 712-715 (`DataShape`). -/
def setState : Klass → List Param → Except PyErr Ty
  | .ctype, [.str n, .int i, .int a] => .ok (.ctype n i.toNat a.toNat)
  | .null, [] => .ok .null
  | .date, [] => .ok .date
  | .time, [.none] => .ok (.time none)
  | .time, [.str s] => .ok (.time (some s))
  | .datetime, [.none] => .ok (.datetime none)
  | .datetime, [.str s] => .ok (.datetime (some s))
  | .timedelta, [.str u] => .ok (.timedelta u)
  | .units, [.str u, .ty t] => .ok (.units u t)
  | .bytes, [] => .ok .bytes
  | .string, [.none, .str e] => .ok (.string none e)
  | .string, [.int i, .str e] => .ok (.string (some i) e)
  | .decimal, [.int p, .int s] => .ok (.decimal p s)
  | .json, [] => .ok .json
  | .fixed, [.int i] => .ok (.fixed i.toNat)
  | .var, [] => .ok .var
  | .typevar, [.str s] => .ok (.typevar s)
  | .ellipsis, [.none] => .ok (.ellipsis none)
  | .ellipsis, [.ty (.typevar s)] => .ok (.ellipsis (some s))
  | .option, [.ty t] => .ok (.option t)
  | .map, [.ty k, .ty v] => .ok (.map k v)
  | .func, ps => do .ok (.func (← ps.mapM Param.asTy))
  | .record, [.fields fs] => .ok (.record fs)
  | .tuple, [.tys ts] => .ok (.tuple ts)
  | .categorical, [.lits c, .ty t, .bool o] => .ok (.categorical c t o)
  | .typeset, [.tys o, .none] => .ok (.typeset o none)
  | .typeset, [.tys o, .str n] => .ok (.typeset o (some n))
  | .dshape, ps => do .ok (.dshape (← ps.mapM Param.asTy))
  | _, _ => .error .unmodelled

mutual
/-- `pickle.loads(pickle.dumps(t))`: the parameters are pickled first, then a fresh object of the class gets the
restored parameters as its state. Simplification: Python strings, ints and tuples come back as they are. -/
def pickleCopy : (t : Ty) → Except PyErr Ty
  | .units u t => do setState .units [.str u, .ty (← pickleCopy t)]
  | .option t => do setState .option [.ty (← pickleCopy t)]
  | .map k v => do
    let k ← pickleCopy k
    let v ← pickleCopy v
    setState .map [.ty k, .ty v]
  | .func ps => do setState .func ((← pickleL ps).map .ty)
  | .record fs => do setState .record [.fields (← pickleF fs)]
  | .tuple ts => do setState .tuple [.tys (← pickleL ts)]
  | .categorical c t o => do setState .categorical [.lits c, .ty (← pickleCopy t), .bool o]
  | .typeset o n => do setState .typeset [.tys (← pickleL o), .ofStr n]
  | .dshape ps => do setState .dshape ((← pickleL ps).map .ty)
  | t => setState t.klass t.parameters
termination_by structural t => t
/-- over a list -/
def pickleL : (l : List Ty) → Except PyErr (List Ty)
  | [] => .ok []
  | t :: r => do
    let t ← pickleCopy t
    let r ← pickleL r
    .ok (t :: r)
termination_by structural l => l
/-- over fields -/
def pickleF : (l : List (Str × Ty)) → Except PyErr (List (Str × Ty))
  | [] => .ok []
  | (n, t) :: r => do
    let t ← pickleCopy t
    let r ← pickleF r
    .ok ((n, t) :: r)
termination_by structural l => l
end

end DS
