import Verif.Model.Util
import Verif.Model.Repr
import Verif.Model.Numpy
import Verif.Model.TestingPath

/-
The constructors and conversions of datashape/coretypes.py again, with the messages of their exceptions.
-/
namespace DS

/-- an exception with its message -/
abbrev Raised := PyErr × Str

/-- without the message (no code) -/
def _root_.Except.bare {α M : Type} : Except (PyErr × M) α → Except PyErr α
  | .ok a => .ok a
  | .error e => .error e.1

/-- The checks of `DataShape.__init__` on laundered parameters: coretypes.py:548-561. -/
def checkM (env : Env) (ps : List Ty) : Except Raised Ty :=
  match ps.getLast? with
  | none => .error (.valueError, py"the data shape should be constructed from 2 or more parameters, only got 0")
  | some m =>
    if m.cls = some .dimension then
      .error (.typeError, py"Only a measure can appear on the last position of a datashape, not " ++ pyReprTy env m)
    else match ps.dropLast.find? fun d => d.cls == some .measure with
      | some d => .error (.typeError, py"Only dimensions can appear before the last position of a datashape, not " ++ pyReprTy env d)
      | none => .ok (.dshape ps)

/-- `DataShape(*params)` for datashape parameters: coretypes.py:542-566, without `name=`. -/
def dataShapeM (env : Env) (ps : List Ty) : Except Raised Ty := checkM env (ps.map launderTy)

/-- `Record(fields)` for string names and datashape types: coretypes.py:1050-1061. `order` is the order in which the set of
names is iterated; `names.remove` removes the first occurrence. -/
def recordM (env : Env) (order : List Str) (fs : List (Str × Ty)) : Except Raised Ty :=
  if (fs.map (·.1)).Nodup then .ok (.record (fs.map fun f => (f.1, launderTy f.2)))
  else .error (.valueError, py"duplicate field names found: " ++ listRepr env (order.foldl List.erase (fs.map (·.1))))

/-- `'%s' % name` of a name that is no string; `shown` if it is none of the modelled values -/
def PVal.shown (env : Env) (shown : Str) : PVal → Str
  | .none => py"None"
  | .str s => s
  | .int i => intStr i
  | .ty t => pyStr env t
  | .other => shown

/-- `RecordMeta._unpack_slice(s, idx)`: coretypes.py:950-976 -/
def unpackSliceM (env : Env) (shown : Str) (i : RItem) (idx : Nat) : Except Raised (Str × PVal) :=
  match i with
  | .other => .error (.typeError, py"invalid field specification at position " ++ natStr idx ++
      py".\nfields must be formatted like: {name}:{type}")
  | .slice .none _ _ => .error (.typeError, py"missing field name at position " ++ natStr idx)
  | .slice (.str n) .none .none => .error (.typeError, py"missing type for field '" ++ n ++ py"' at position " ++ natStr idx)
  | .slice (.str n) t .none => .ok (n, t)
  | .slice (.str n) _ _ => .error (.typeError, py"unexpected slice step for field '" ++ n ++ py"' at position " ++ natStr idx ++
      py".\nhint: you might have a second ':'")
  | .slice n _ _ => .error (.typeError, py"field name at position " ++ natStr idx ++ py" ('" ++ n.shown env shown ++
      py"') was not a string")

/-- `list(map(self._unpack_slice, types, range(len(types))))`: coretypes.py:982, from position `idx` -/
def fieldsM (env : Env) (shown : Nat → Str) : Nat → List RItem → Except Raised (List (Str × PVal))
  | _, [] => .ok []
  | idx, i :: r => do
    let f ← unpackSliceM env (shown idx) i idx
    let fs ← fieldsM env shown (idx + 1) r
    .ok (f :: fs)

/-- `ds.subarray(leading)`: coretypes.py:131-140, 592-608 -/
def subarrayM (env : Env) (t : Ty) (k : Int) : Except Raised Ty :=
  let msg := py"Not enough dimensions in data shape to remove " ++ intStr k ++ py" leading dimensions."
  match t with
  | .dshape ps =>
    if k ≥ ps.length then .error (.indexError, msg)
    else if k = ps.length - 1 ∨ k = -1 then
      (match ps.getLast? with | none => .error (.indexError, py"tuple index out of range") | some m => dataShapeM env [m])
    else dataShapeM env (pyDrop ps k)
  | t => if k ≥ 1 then .error (.indexError, msg) else .ok t

/-- the dimensions of `to_numpy(ds)`: coretypes.py:1307-1315 -/
def toNumpyDimsM (env : Env) : List Ty → Except Raised (List Int)
  | [] => .ok []
  | [_] => .ok []
  | d :: q :: ps => do
    let n ← (match d with
      | .fixed n => (.ok (n : Int) : Except Raised Int)
      | .typevar _ => .ok (-1)
      | d => .error (.typeError, py"DataShape dimension " ++ pyStr env d ++ py" is not NumPy-compatible"))
    let r ← toNumpyDimsM env (q :: ps)
    .ok (n :: r)

/-- `TypeVar(symbol)`: coretypes.py:873-877 -/
def typeVarM (env : Env) (s : Str) : Except Raised Ty :=
  match s with
  | [] => .error (.indexError, py"string index out of range")
  | c :: _ => if env.isUpper c then .ok (.typevar s)
    else .error (.valueError, py"TypeVar symbol " ++ pyRepr env s ++ py" does not begin with a capital")

/-- `String(fixlen, encoding)`: coretypes.py:394-404 -/
def stringM (env : Env) (fixlen : Option Int) (encoding : Option Str) : Except Raised Ty :=
  let e := match encoding with
    | none => py"U8"
    | some e => if e.isEmpty then py"U8" else e
  match encodings.lookup e with
  | some c => .ok (.string fixlen c)
  | none => .error (.valueError, py"Unsupported string encoding " ++ pyRepr env e)

end DS
