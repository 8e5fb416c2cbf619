import Verif.Model.Parser

/-
datashape/type_symbol_table.py: the default symbol table, and the calls of the constructors of
coretypes.py with the arguments the parser can produce.

`nest` is `datashape.dshape` on a string, reached through `_launder` (coretypes.py:933-934).
`disc` is `datashape.discover` on a tuple of literals (coretypes.py:1112).
-/
namespace DS

/-- keyword lookup in `dict(kwargs)` (parser.py:352): the last binding of a name wins -/
def kwLookup (kw : List (Str × Arg)) (n : Str) : Option Arg := kw.reverse.lookup n

/-- Python's binding of positional and keyword arguments to the parameters `names`; `none` for a parameter
that got no value. Too many positionals, unknown keywords and double bindings raise `TypeError`. -/
def bindArgs (names : List Str) (args : List Arg) (kw : List (Str × Arg)) :
    Except PyErr (List (Option Arg)) :=
  if args.length > names.length then .error .typeError
  else
    let free := names.drop args.length
    if kw.any fun p => !free.contains p.1 then .error .typeError
    else .ok (args.map some ++ free.map (kwLookup kw))

/-- `iter(x)`: a string yields its characters, a list its elements, a `DataShape` its parameters (it has
`__getitem__`, coretypes.py:571-572); ints and bools are not iterable. (The parser only produces
`DataShape`s; another `Mono` would yield itself once, coretypes.py:111-112.) -/
def Arg.iter : Arg → Except PyErr (List Arg)
  | .lit (.str s) => .ok (s.map fun c => .lit (.str [c]))
  | .lit _ => .error .typeError
  | .lits l => .ok (l.map .lit)
  | .dss l => .ok (l.map .ds)
  | .ds (.dshape ps) => .ok (ps.map .ds)
  | .ds (.record _) => .error .keyError
  | .ds t => .ok [.ds t]

/-- `_launder(x)`: coretypes.py:916-938 -/
def Arg.launder (nest : Str → Except PyErr Ty) : Arg → Except PyErr Ty
  | .lit (.int i) => mkFixed i
  | .lit (.bool b) => .ok (.fixed (if b then 1 else 0))
  | .lit (.str s) => match nest s with
    | .ok t => .ok (launderTy t)
    | .error e => .error e
  | .ds t => .ok (launderTy t)
  | .lits _ => .error .typeError
  | .dss _ => .error .typeError

/-- `str(x)` of an element (coretypes.py:1050-1053 for field names, 313 for time units); `none` for lists -/
def Arg.str (env : Env) : Arg → Option Str
  | .lit (.int i) => some (intStr i)
  | .lit (.bool b) => some (boolStr b)
  | .lit (.str s) => some s
  | .ds t => some (pyStr env t)
  | .lits _ => none
  | .dss _ => none

/-- Python truth value of an argument (a `DataShape` has positive length) -/
def Arg.truthy : Arg → Bool
  | .lit (.int i) => i != 0
  | .lit (.bool b) => b
  | .lit (.str s) => !s.isEmpty
  | .ds _ => true
  | .lits l => !l.isEmpty
  | .dss l => !l.isEmpty

/-- `_complex(tp)`: type_symbol_table.py:17-25 -/
def cComplex : Constr := fun args kw => do
  match ← bindArgs [py"tp"] args kw with
  | [some (.ds t)] =>
    if pyEq t (.dshape [tFloat32]) then .ok tComplex64
    else if pyEq t (.dshape [tFloat64]) then .ok tComplex128
    else .error .typeError
  | _ => .error .typeError

/-- `String(*args)`: coretypes.py:383-404. A `fixlen` that is not an int is accepted by Python
and outside the model. -/
def cString : Constr := fun args kw =>
  if !kw.isEmpty then .error .typeError
  else match args with
  | [] => mkString none none
  | [.lit (.str e)] => mkString none (some e)
  | [.lit (.int i)] => mkString (some i) none
  | [.lit (.bool b)] => mkString (some (if b then 1 else 0)) none
  | [_] => .error .unboundLocal
  | [f, e] => do
    let enc ← (match e with
      | .lit (.str s) => (.ok (some s) : Except PyErr (Option Str))
      | .lits l => if l.isEmpty then .ok none else .error .typeError
      | .dss l => if l.isEmpty then .ok none else .error .typeError
      | e => if e.truthy then .error .valueError else .ok none)
    let t ← mkString none enc
    match f, t with
    | .lit (.int i), .string _ c => .ok (.string (some i) c)
    | .lit (.bool b), .string _ c => .ok (.string (some (if b then 1 else 0)) c)
    | _, _ => .error .unmodelled
  | _ => .error .unboundLocal

/-- names and types of the fields given to `Record` (coretypes.py:1047-1055) -/
def structFields (env : Env) (nest : Str → Except PyErr Ty) : List (Arg × Arg) → Except PyErr (List (Str × Ty))
  | [] => .ok []
  | (n, t) :: r => do
    match n.str env with
    | none => .error .unmodelled
    | some n =>
      let t ← t.launder nest
      let rest ← structFields env nest r
      .ok ((n, t) :: rest)

/-- `_struct(names, dshapes)`: type_symbol_table.py:28-30; `zip` stops at the shorter list -/
def cStruct (env : Env) (nest : Str → Except PyErr Ty) : Constr := fun args kw => do
  match ← bindArgs [py"names", py"dshapes"] args kw with
  | [some ns, some ts] => do
    let ns ← ns.iter
    let ts ← ts.iter
    mkRecord (← structFields env nest (ns.zip ts))
  | _ => .error .typeError

/-- `DataShape(ds) if not isinstance(ds, DataShape) else ds` on an element (coretypes.py:1147) -/
def tupleElem : Arg → Except PyErr Ty
  | .lit (.int i) => if i < 0 then .error .valueError else .error .typeError
  | .ds t => wrapDS t
  | _ => .error .typeError

/-- `Tuple(dshapes)`: coretypes.py:1140-1149 -/
def cTuple : Constr := fun args kw => do
  match ← bindArgs [py"dshapes"] args kw with
  | [some ts] => do
    let ts ← ts.iter
    let l ← ts.mapM tupleElem
    .ok (.tuple l)
  | _ => .error .typeError

/-- a component of a `Function` (stored as is; anything that is not a datashape is outside the model) -/
def funcElem : Arg → Except PyErr Ty
  | .ds t => .ok t
  | _ => .error .unmodelled

/-- `_funcproto(args, ret)`: type_symbol_table.py:33-35 -/
def cFunc : Constr := fun args kw => do
  match ← bindArgs [py"args", py"ret"] args kw with
  | [some ts, some r] => do
    let ts ← ts.iter
    let l ← ts.mapM funcElem
    let r ← funcElem r
    .ok (.func (l ++ [r]))
  | _ => .error .typeError

/-- `symbol[0].isupper()` (coretypes.py:874) where `symbol` is not a string: numbers cannot be subscripted; the first element
of a list or of a datashape has no `isupper` unless it is a string, which is outside the model (Python keeps the list if
that string is in capitals). -/
def Arg.noSymbol : Arg → PyErr
  | .lits [] | .dss [] => .indexError
  | .lits (.str _ :: _) => .unmodelled
  | .lits _ | .dss _ => .attributeError
  | .ds (.record _) => .keyError
  | .ds _ => .attributeError
  | .lit _ => .typeError

/-- `_typevar_dtype(name)`: type_symbol_table.py:44-47, and `_typevar_dim(name)`: type_symbol_table.py:38-41 -/
def cTypeVar (env : Env) : Constr := fun args kw => do
  match ← bindArgs [py"name"] args kw with
  | [some (.lit (.str s))] => mkTypeVar env s
  | [some a] => .error a.noSymbol
  | _ => .error .typeError

/-- `Option(ds)`: coretypes.py:729-730 -/
def cOption (nest : Str → Except PyErr Ty) : Constr := fun args kw => do
  match ← bindArgs [py"ds"] args kw with
  | [some a] => do .ok (.option (← a.launder nest))
  | _ => .error .typeError

/-- `Map(key, value)`: coretypes.py:903-905 -/
def cMap (nest : Str → Except PyErr Ty) : Constr := fun args kw => do
  match ← bindArgs [py"key", py"value"] args kw with
  | [some k, some v] => do
    let k ← k.launder nest
    let v ← v.launder nest
    .ok (.map k v)
  | _ => .error .typeError

/-- `Time(tz=None)`: coretypes.py:230-234 -/
def cTime : Constr := fun args kw => do
  match ← bindArgs [py"tz"] args kw with
  | [none] => .ok (.time none)
  | [some (.lit (.str s))] => .ok (.time (some s))
  | _ => .error .typeError

/-- `DateTime(tz=None)`: coretypes.py:250-255 -/
def cDateTime : Constr := fun args kw => do
  match ← bindArgs [py"tz"] args kw with
  | [none] => .ok (.datetime none)
  | [some (.lit (.str s))] => .ok (.datetime (some s))
  | _ => .error .typeError

/-- `TimeDelta(unit='us')`: coretypes.py:308-313. `str()` of a list ends in `]`, which is no unit. -/
def cTimeDelta (env : Env) : Constr := fun args kw => do
  match ← bindArgs [py"unit"] args kw with
  | [none] => mkTimeDelta (py"us")
  | [some a] => (match a.str env with
    | some s => mkTimeDelta s
    | none => .error .valueError)
  | _ => .error .typeError

/-- `Units(unit, tp=None)`: coretypes.py:327-337 -/
def cUnits : Constr := fun args kw => do
  match ← bindArgs [py"unit", py"tp"] args kw with
  | [some (.lit (.str u)), none] => mkUnits u none
  | [some (.lit (.str u)), some (.ds t)] => mkUnits u (some t)
  | _ => .error .typeError

/-- `Decimal(precision, scale=0)`: coretypes.py:470-472; non-integers are accepted by Python and
outside the model -/
def cDecimal : Constr := fun args kw => do
  match ← bindArgs [py"precision", py"scale"] args kw with
  | [some (.lit (.int p)), none] => .ok (.decimal p 0)
  | [some (.lit (.int p)), some (.lit (.int s))] => .ok (.decimal p s)
  | [some _, _] => .error .unmodelled
  | _ => .error .typeError

/-- a category: literals only, datashapes as categories are outside the model -/
def catElem : Arg → Except PyErr Lit
  | .lit l => .ok l
  | _ => .error .unmodelled

/-- `Categorical(categories, type=None, ordered=False)`: coretypes.py:1111-1123. An `ordered` that is not a
bool is accepted by Python and outside the model. -/
def cCategorical (disc : List Lit → Except PyErr Ty) : Constr := fun args kw => do
  match ← bindArgs [py"categories", py"type", py"ordered"] args kw with
  | [some c, ty, o] => do
    let c ← c.iter
    let c ← c.mapM catElem
    let t ← (match ty with
      | some a => if a.truthy then
          (match a with | .ds t => .ok t.measure | _ => .error .attributeError)
        else (disc c).map Ty.measure
      | none => (disc c).map Ty.measure)
    match o with
    | none => .ok (.categorical c t false)
    | some (.lit (.bool b)) => .ok (.categorical c t b)
    | _ => .error .unmodelled
  | _ => .error .typeError

/-- `no_constructor_types`: type_symbol_table.py:54-83 (64-bit) -/
def dtypeTable : List (Str × Ty) :=
  [(py"bool", tBool), (py"int8", tInt8), (py"int16", tInt16), (py"int32", tInt32), (py"int64", tInt64),
   (py"intptr", tInt64), (py"int", tInt32), (py"uint8", tUint8), (py"uint16", tUint16),
   (py"uint32", tUint32), (py"uint64", tUint64), (py"uintptr", tUint64), (py"float16", tFloat16),
   (py"float32", tFloat32), (py"float64", tFloat64), (py"complex64", tComplex64),
   (py"complex128", tComplex128), (py"real", tFloat64), (py"complex", tComplex128), (py"string", tString),
   (py"json", .json), (py"date", .date), (py"time", .time none), (py"datetime", .datetime none),
   (py"timedelta", tTimedelta), (py"null", .null), (py"void", tVoid), (py"object", tObject)]

/-- `constructor_types`: type_symbol_table.py:86-101 -/
def constrTable (env : Env) (nest : Str → Except PyErr Ty) (disc : List Lit → Except PyErr Ty) :
    List (Str × Constr) :=
  [(py"complex", cComplex), (py"string", cString), (py"struct", cStruct env nest), (py"tuple", cTuple),
   (py"funcproto", cFunc), (py"typevar", cTypeVar env), (py"option", cOption nest), (py"map", cMap nest),
   (py"time", cTime), (py"datetime", cDateTime), (py"timedelta", cTimeDelta env), (py"units", cUnits),
   (py"decimal", cDecimal), (py"categorical", cCategorical disc)]

/-- `dim_no_constructor`: type_symbol_table.py:104-107 -/
def dimTable : List (Str × Ty) := [(py"var", .var), (py"ellipsis", .ellipsis none)]

/-- `dim_constructor`: type_symbol_table.py:110-114 -/
def dimConstrTable (env : Env) : List (Str × (Lit → Except PyErr Ty)) :=
  [(py"fixed", fun | .int i => mkFixed i | .bool b => .ok (.fixed (if b then 1 else 0)) | .str _ => .error .typeError),
   (py"typevar", fun | .str s => mkTypeVar env s | _ => .error .typeError),
   (py"ellipsis", fun | .str s => mkEllipsis env s | _ => .error .typeError)]

/-- `sym = TypeSymbolTable()`: type_symbol_table.py:117-155 -/
def defaultSym (env : Env) (nest : Str → Except PyErr Ty) (disc : List Lit → Except PyErr Ty) : Sym where
  dtype n := dtypeTable.lookup n
  dtypeConstr n := (constrTable env nest disc).lookup n
  dim n := dimTable.lookup n
  dimConstr n := (dimConstrTable env).lookup n

/-! ### `validate` and `dshape` -/

mutual
/-- `validate(ds)` raises no exception: validation.py:10-67. `traverse` visits the parameters of every `Mono`
that is not a `Unit`; the parameters of records and tuples are Python tuples and are not visited. -/
def validOk : (t : Ty) → Bool
  | .dshape ps => validOkL ps && !((ps.filter Ty.isEllipsis).length > 1) &&
      !((ps.getLast?.map Ty.isEllipsis).getD false)
  | .option t => validOk t
  | .map k v => validOk k && validOk v
  | .func ps => validOkL ps
  | .categorical _ t _ => validOk t
  | _ => true
termination_by structural t => t
/-- list version -/
def validOkL : (l : List Ty) → Bool
  | [] => true
  | t :: r => validOk t && validOkL r
termination_by structural l => l
end

/-- `dshape(s)` for a string (util/__init__.py:31-56), with a bound on the nesting of strings inside type
constructor arguments. -/
def dshapeN (env : Env) (disc : List Lit → Except PyErr Ty) : Nat → Str → Except PyErr Ty
  | 0, _ => .error .fuel
  | fuel + 1, s =>
    match parse (defaultSym env (dshapeN env disc fuel) disc) s with
    | .ok t => if validOk t then .ok t else .error .typeError
    | .error e => .error e

/-- `dshape(s)` for a string: util/__init__.py:31-56. A string nested in `s` is shorter than `s`, so
the bound is never reached (`dshape_eq`). -/
def dshape (env : Env) (disc : List Lit → Except PyErr Ty) (s : Str) : Except PyErr Ty :=
  dshapeN env disc (s.length + 1) s

/-- `dshape(o)` for a datashape object: util/__init__.py:42-56 -/
def dshapeTy (t : Ty) : Except PyErr Ty :=
  if t.isDShape then .ok t
  else do
    let d ← (if t.isUnit || t.isRecord || (match t with | .json => true | _ => false) then mkDS [t] else .ok t)
    if validOk d then .ok d else .error .typeError

end DS
