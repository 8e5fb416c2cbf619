import Verif.Model.Messages

/-
The dtype of a datashape (Model/Numpy.lean) again, with the messages of the exceptions. `none` stands for a message of NumPy's.
-/
namespace DS

/-- an exception of NumPy's -/
def byNumpy {α : Type} : Except PyErr α → Except (PyErr × Option Str) α
  | .ok a => .ok a
  | .error e => .error (e, none)

/-- an exception with a message of datashape's -/
def withText {α : Type} : Except Raised α → Except (PyErr × Option Str) α
  | .ok a => .ok a
  | .error e => .error (e.1, some e.2)

/-- `raise TypeError('DataShape %s is not NumPy-compatible' % self)`: coretypes.py:172-173 -/
def unsupportedM (env : Env) (t : Ty) : Except (PyErr × Option Str) DType :=
  .error (.typeError, some (py"DataShape " ++ pyStr env t ++ py" is not NumPy-compatible"))

mutual
/-- The dtype of a datashape, see `toDtype`. The method: coretypes.py:172-173 (`Mono`), 220-221 `Date`, 264-265 `DateTime`,
318-319 `TimeDelta`, 423-441 `String`, 479-506 `Decimal`, 743-746 `Option`, 806-815 `CType`, 912-913 `Map` (the key's),
1079-1084 `Record`, 1154-1159 `Tuple`. -/
def toDtypeM (env : Env) : (t : Ty) → DtMode → Except (PyErr × Option Str) DType
  | .ctype n _ _, _ => (match npDtypeTable.lookup n with
    | some p => .ok (.prim p)
    | none => .error (.typeError, none))
  | .date, _ => .ok (.datetime (py"D"))
  | .datetime _, _ => .ok (.datetime (py"us"))
  | .timedelta u, _ => .ok (.timedelta u)
  | .string n e, _ => byNumpy (stringDtype n e)
  | .decimal p s, _ => (match decimalDtype p s with
    | .ok q => .ok (.prim q)
    | .error e => .error (e, some (py"Integer Decimal precision > 18 is not NumPy-compatible")))
  | .option t, _ => (match t with
    | .date => .ok (.datetime (py"D"))
    | .datetime _ => .ok (.datetime (py"us"))
    | .timedelta u => .ok (.timedelta u)
    | t => .error (.typeError, some (py"DataShape measure " ++ pyStr env (.option t) ++ py" is not NumPy-compatible")))
  | .map k _, _ => toDtypeM env k .measure
  | .record fs, _ => do
    let l ← toDtypeFM env fs
    byNumpy (npStruct l)
  | .tuple ts, _ => do
    let l ← toDtypeLM env ts 0
    byNumpy (npStruct l)
  | .dshape ps, .method => unsupportedM env (.dshape ps)
  | .dshape ps, .measure => toDtypeLastM env ps .full
  | .dshape ps, .full => do
    let _ ← withText (toNumpyDimsM env ps)
    toDtypeLastM env ps .method
  | t, _ => unsupportedM env t
termination_by structural t => t
/-- the dtype of the last parameter of a `DataShape` -/
def toDtypeLastM (env : Env) : (ps : List Ty) → DtMode → Except (PyErr × Option Str) DType
  | [], _ => .error (.typeError, none)
  | [m], k => toDtypeM env m k
  | _ :: q :: ps, k => toDtypeLastM env (q :: ps) k
termination_by structural l => l
/-- the fields of a record (coretypes.py:1083-1084) -/
def toDtypeFM (env : Env) : (l : List (Str × Ty)) → Except (PyErr × Option Str) (List (Str × DType))
  | [] => .ok []
  | (n, t) :: r => do
    let d ← toDtypeM env t .measure
    let rest ← toDtypeFM env r
    .ok ((n, d) :: rest)
termination_by structural l => l
/-- the components of a tuple, named `f0`, `f1`, … (coretypes.py:1158-1159) -/
def toDtypeLM (env : Env) : (l : List Ty) → Nat → Except (PyErr × Option Str) (List (Str × DType))
  | [], _ => .ok []
  | t :: r, i => do
    let d ← toDtypeM env t .measure
    let rest ← toDtypeLM env r (i + 1)
    .ok ((py"f" ++ natStr i, d) :: rest)
termination_by structural l => l
end

/-- `to_numpy(ds)`: coretypes.py:1292-1322 -/
def toNumpyM (env : Env) (t : Ty) : Except (PyErr × Option Str) (List Int × DType) :=
  match t with
  | .dshape ps => do
    let sh ← withText (toNumpyDimsM env ps)
    let d ← toDtypeLastM env ps .method
    .ok (sh, d)
  | t => do
    let d ← toDtypeM env t .method
    .ok ([], d)

end DS
