import Verif.Model.Discovery
import Verif.Model.Numpy

/-
datashape/user.py: `validate` and `issubschema`.
-/
namespace DS

/-- `bool(x)` of what `validate` returns (`True`, `False` or `None`) -/
def isTrue : Option Bool → Bool
  | some b => b
  | none => false

/-- `all(f(x) for x in l)`: stops at the first falsy result -/
def pyAll {α : Type} (f : α → Except PyErr (Option Bool)) : List α → Except PyErr Bool
  | [] => .ok true
  | x :: r => do if isTrue (← f x) then pyAll f r else .ok false

/-- instances of `basetypes` (user.py:13). `bool` is a subclass of `int`, `datetime` of `date`. -/
def PyObj.isBase : PyObj → Bool
  | .int | .float | .bool | .str _ | .date | .time | .datetime | .npScalar _ => true
  | _ => false

/-- the elements of a `tuple` or `list`; `none` for other values -/
def PyObj.seqItems : PyObj → Option (List PyObj)
  | .seq .list l => some l
  | .seq .tuple l => some l
  | _ => Option.none

/-- the items of an instance of `dict` (`OrderedDict` included); `none` for other values -/
def PyObj.dictItems : PyObj → Option (List (Str × PyObj))
  | .dict kvs => some kvs
  | .od kvs => some kvs
  | _ => Option.none

/-- The part of user.py:29-32 after the first `or`: `isdimension(head)`, the length, and the items. -/
def headCheck (head : Ty) (items : List PyObj) (f : PyObj → Except PyErr (Option Bool)) :
    Except PyErr (Option Bool) :=
  if isDimension head then
    match head with
    | .var => do .ok (some (← pyAll f items))
    | .fixed n => if n = items.length then do .ok (some (← pyAll f items)) else .ok (some false)
    | _ => .error .typeError    -- `int(head)` of an `Ellipsis`
  else .ok (some false)

mutual
/-- `validate(schema, value)` for a datashape `schema`: user.py:21-50, 67-77. `ext` is the NumPy test of a `CType`
(user.py:16-23: `to_numpy_dtype` and `np.issubdtype`). Simplification: `DataShape(*schema[1:])` is not rebuilt; on the
parameters of an existing `DataShape` that is the identity (C16). -/
def validate (ext : Ty → PyObj → Except PyErr Bool) : (schema : Ty) → PyObj → Except PyErr (Option Bool)
  | .ctype n i a, v => if v.isBase then do .ok (some (← ext (.ctype n i a) v)) else .ok (some false)
  | .string _ _, v => (match v with | .str _ => .ok (some true) | _ => .ok (some false))
  | .time _, v => (match v with | .time => .ok (some true) | _ => .ok (some false))
  | .date, v => (match v with | .date => .ok (some true) | .datetime => .ok (some true) | _ => .ok (some false))
  | .datetime _, v => (match v with | .datetime => .ok (some true) | _ => .ok (some false))
  | .record fs, v => (match v.dictItems with
      | some d => do .ok (some (← validateDict ext fs d))
      | none => (match v.seqItems with
        | some l => do .ok (some (← validateZip ext fs l))
        | none => .ok (some false)))
  | .dshape ps, v => validateDS ext ps v
  | _, _ => .ok (some false)
termination_by structural schema => schema
/-- user.py:26-38, by the parameters of the `DataShape` -/
def validateDS (ext : Ty → PyObj → Except PyErr Bool) : (ps : List Ty) → PyObj → Except PyErr (Option Bool)
  | [], v => (match v.seqItems with | some _ => .error .indexError | none => .ok none)
  | t :: r, v => (match r with
    | [] => do
      let x ← validate ext t v
      (match v.seqItems with
        | none => .ok x
        | some items => if isTrue x then .ok x else headCheck t items fun _ => .error .valueError)
    | _ :: _ => (match v.seqItems with
      | none => .ok none
      | some items => headCheck t items fun item => validateDS ext r item))
termination_by structural ps => ps
/-- `all(validate(sch, d.get(k)) for k, sch in schema.parameters[0])`: user.py:41-43 -/
def validateDict (ext : Ty → PyObj → Except PyErr Bool) : (fs : List (Str × Ty)) → List (Str × PyObj) →
    Except PyErr Bool
  | [], _ => .ok true
  | (k, t) :: r, d => do
    if isTrue (← validate ext t ((d.lookup k).getD .none)) then validateDict ext r d else .ok false
termination_by structural fs => fs
/-- `all(validate(sch, item) for (k, sch), item in zip(schema.parameters[0], seq))`: user.py:46-49 -/
def validateZip (ext : Ty → PyObj → Except PyErr Bool) : (fs : List (Str × Ty)) → List PyObj → Except PyErr Bool
  | [], _ => .ok true
  | (_, t) :: r, l => (match l with
    | [] => .ok true
    | v :: l' => do if isTrue (← validate ext t v) then validateZip ext r l' else .ok false)
termination_by structural fs => fs
end

/-- A schema argument of `validate`: a datashape, a string, a class (given by `isinstance`), a tuple of schemas. -/
inductive SchemaArg where
  | ty (t : Ty)
  | str (s : Str)
  | cls (isinstance : PyObj → Bool)
  | tuple (l : List SchemaArg)

mutual
/-- `validate(schema, value)`: user.py:52-64 for strings, classes and tuples -/
def validateArg (ext : Ty → PyObj → Except PyErr Bool) (parse : Str → Except PyErr Ty) :
    (schema : SchemaArg) → PyObj → Except PyErr (Option Bool)
  | .ty t, v => validate ext t v
  | .str s, v => do validate ext (← parse s) v
  | .cls p, v => .ok (some (p v))
  | .tuple l, v => do .ok (some (← validateAny ext parse l v))
termination_by structural schema => schema
/-- `any(validate(schema, value) for schema in schemas)` -/
def validateAny (ext : Ty → PyObj → Except PyErr Bool) (parse : Str → Except PyErr Ty) :
    (l : List SchemaArg) → PyObj → Except PyErr Bool
  | [], _ => .ok false
  | s :: r, v => do if isTrue (← validateArg ext parse s v) then .ok true else validateAny ext parse r v
termination_by structural l => l
end

/-- `issubschema(a, b)` for two `DataShape`s: user.py:90-97; `none` is Python's `None` -/
def issubschemaDS (a b : Ty) : Option Bool := if pyEq a b then some true else none

/-- An argument of `dshape`: a datashape or a string -/
inductive DArg where
  | ty (t : Ty)
  | str (s : Str)

/-- `dshape(x)`: util/__init__.py:31-56 -/
def DArg.dshape (parse : Str → Except PyErr Ty) : DArg → Except PyErr Ty
  | .ty t => dshapeTy t
  | .str s => parse s

/-- `issubschema(a, b)`: user.py:85-97. `dshape` of two arguments that do not become `DataShape`s (`?int32` for
example, which `dshape` leaves as it is) calls `issubschema(object, object)` again, without end. -/
def issubschema (parse : Str → Except PyErr Ty) (a b : DArg) : Except PyErr (Option Bool) := do
  let x ← a.dshape parse
  let y ← b.dshape parse
  if x.isDShape && y.isDShape then .ok (issubschemaDS x y) else .error .recursion

/-- `validate(schema, array)` for a `DataShape` and a NumPy array: user.py:80-82 -/
def validateArray (parse : Str → Except PyErr Ty) (schema : Ty) (shape : List Int) (dtype : DType) :
    Except PyErr (Option Bool) := do
  issubschema parse (.ty (← fromNumpy dtype shape)) (.ty schema)

end DS
