import Verif.Model.Typesets

/-
datashape/predicates.py. The functions are modelled on datashapes; on a string they first call `dshape`.
-/
namespace DS

/-- `isinstance(t, Categorical)` -/
def Ty.isCategorical : Ty → Bool
  | .categorical .. => true
  | _ => false

/-- `isscalar(ds)`: predicates.py:19-33; a one-element `DataShape` is unwrapped like in `_launder` -/
def isScalar (t : Ty) : Bool :=
  let u := (launderTy t).unOption
  u.isUnit || u.isCategorical

/-- `isrecord(ds)`: predicates.py:36-50 -/
def isRecord (t : Ty) : Bool := (launderTy t).unOption.isRecord

/-- `isdimension(ds)`: predicates.py:16, 53-64 -/
def isDimension : Ty → Bool
  | .fixed _ | .var | .ellipsis _ => true
  | _ => false

/-- `ishomogeneous(ds)`: predicates.py:67-79, with `remove` of internal_utils.py:32-33 -/
def isHomogeneous (t : Ty) : Except PyErr Bool := do
  let d ← dshapeTy t
  let l ← collect isScalar d
  .ok ((pyDistinct (l.filter fun x => !isDimension x)).length == 1)

mutual
/-- `isfixed(ds)`: predicates.py:88-109; `none` is Python's `None`. `dshape(ds)` wraps units, records and `json` into
a one-element `DataShape` (which fails for `Fixed` and `Var`) and validates everything that is not a `DataShape`.
Simplification: `subarray(1)` rebuilds the `DataShape` of the remaining parameters; on the parameters of an existing
`DataShape` that is the identity (C16). -/
def isFixed : (t : Ty) → Except PyErr (Option Bool)
  | .dshape ps => isFixedL ps
  | .record fs => isFixedF fs
  | .typevar _ => .ok none
  | .fixed _ => .error .typeError
  | .var => .error .typeError
  | t => if validOk t then .ok (some true) else .error .typeError
termination_by structural t => t
/-- the parameters of a `DataShape` from the first one on -/
def isFixedL : (l : List Ty) → Except PyErr (Option Bool)
  | [] => .error .indexError
  | p :: r => (match isFixedHead p with
    | some b => b
    | none => (match r with
      | [] => .ok (some true)
      | _ => isFixedL r))
termination_by structural l => l
/-- the decisions made on `ds[0]`: predicates.py:101-106 -/
def isFixedHead : (t : Ty) → Option (Except PyErr (Option Bool))
  | .typevar _ => some (.ok none)
  | .var => some (.ok (some false))
  | .record fs => some (isFixedF fs)
  | _ => none
termination_by structural t => t
/-- `all(map(isfixed, types))`: predicates.py:106, stopping at the first falsy answer (`None` is falsy) -/
def isFixedF : (l : List (Str × Ty)) → Except PyErr (Option Bool)
  | [] => .ok (some true)
  | (_, t) :: r => do
    match ← isFixed t with
    | some true => isFixedF r
    | _ => .ok (some false)
termination_by structural l => l
end

/-- `istabular(ds)`: predicates.py:112-125 -/
def isTabular (t : Ty) : Except PyErr Bool := do
  let d ← dshapeTy t
  .ok (d.shape.length == 1 && isRecord d.measure)

/-- `ds[0]`: coretypes.py:111-112 (`Mono`), 571-572 (`DataShape`), 1086-1087 (`Record`, by name) -/
def firstItem : Ty → Except PyErr Ty
  | .dshape (p :: _) => .ok p
  | .dshape [] => .error .indexError
  | .record _ => .error .keyError
  | t => .ok t

/-- `iscollection(ds)`: predicates.py:128-138 -/
def isCollection (t : Ty) : Except PyErr Bool := do
  let f ← firstItem t
  .ok (isDimension f)

/-- `launder(ds)` of predicates.py:163-168 -/
def measureOf (t : Ty) : Ty := t.measure.unOption

/-- `isnumeric(ds)`: predicates.py:141-160. Only `TypeError` is caught. -/
def isNumeric (t : Ty) : Except PyErr Bool :=
  let m := measureOf t
  match toNumpyDtype m with
  | .error .typeError => .ok false
  | .error e => .error e
  | .ok d => .ok (m.isUnit && d.isNumber)

/-- `isreal(ds)`: predicates.py:171-182 -/
def isReal (t : Ty) : Bool :=
  let m := measureOf t
  m.isUnit && tsContains tsFloating m

/-- `isboolean(ds)`: predicates.py:185-195 -/
def isBoolean (t : Ty) : Bool := tsContains tsBoolean (measureOf t)

/-- `isdatelike(ds)`: predicates.py:198-209 -/
def isDateLike (t : Ty) : Bool :=
  let m := measureOf t
  pyEq m .date || pyEq m (.datetime none)

end DS
