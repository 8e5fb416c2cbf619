import Verif.Model.SymTab

/-
datashape/util/__init__.py (`cat_dshapes`, `collect`, `has*`), `subarray`, and records.
-/
namespace DS

/-! ### has, collect (util/__init__.py:91-146) -/

mutual
/-- `has(typ, ds)`: util/__init__.py:126-135; `p` is `isinstance(·, typ)`. The parameters of a `Record` are its
types, those of a `Tuple` its components; strings, numbers and `None` among the parameters give `False`. The type
variable of an ellipsis is one of its parameters. -/
def has (p : Ty → Bool) : (t : Ty) → Bool
  | .units u t => p (.units u t) || has p t
  | .option t => p (.option t) || has p t
  | .map k v => p (.map k v) || has p k || has p v
  | .func ps => p (.func ps) || hasL p ps
  | .record fs => p (.record fs) || hasF p fs
  | .tuple ts => p (.tuple ts) || hasL p ts
  | .categorical c t o => p (.categorical c t o) || has p t
  | .typeset o n => p (.typeset o n) || hasL p o
  | .dshape ps => p (.dshape ps) || hasL p ps
  | .ellipsis (some s) => p (.ellipsis (some s)) || p (.typevar s)
  | t => p t
termination_by structural t => t
/-- `any(has(typ, p) for p in …)` -/
def hasL (p : Ty → Bool) : (l : List Ty) → Bool
  | [] => false
  | t :: r => has p t || hasL p r
termination_by structural l => l
/-- the same over the types of a record -/
def hasF (p : Ty → Bool) : (l : List (Str × Ty)) → Bool
  | [] => false
  | (_, t) :: r => has p t || hasF p r
termination_by structural l => l
end

/-- `has_var_dim(ds)`: util/__init__.py:113-123 -/
def hasVarDim (t : Ty) : Bool := has (fun u => u.isEllipsis || u.isVar) t

/-- `has_ellipsis(ds)`: util/__init__.py:138-146 -/
def hasEllipsis (t : Ty) : Bool := has Ty.isEllipsis t

/-- The class has a parameter (a string, a number, a bool or `None`) that is neither a datashape nor a sequence;
`collect` returns `None` for it, and iterating over that raises `TypeError`. From the `__slots__` in coretypes.py and
typesets.py:22. -/
def Ty.scalarParam : Ty → Bool
  | .ctype .. | .time _ | .datetime _ | .timedelta _ | .units .. | .string .. | .decimal .. | .fixed _
  | .typevar _ | .ellipsis none | .categorical .. | .typeset .. => true
  | _ => false

mutual
/-- `list(collect(pred, expr))`: util/__init__.py:91-110, for a predicate that is false of everything that is not a
datashape. Simplification: the lazy generators are evaluated completely. -/
def collect (p : Ty → Bool) : (t : Ty) → Except PyErr (List Ty)
  | .units u t => if p (.units u t) then .ok [.units u t] else .error .typeError
  | .option t => if p (.option t) then .ok [.option t] else collect p t
  | .map k v => if p (.map k v) then .ok [.map k v] else do
      let a ← collect p k
      let b ← collect p v
      .ok (a ++ b)
  | .func ps => if p (.func ps) then .ok [.func ps] else collectL p ps
  | .record fs => if p (.record fs) then .ok [.record fs] else collectF p fs
  | .tuple ts => if p (.tuple ts) then .ok [.tuple ts] else collectL p ts
  | .dshape ps => if p (.dshape ps) then .ok [.dshape ps] else collectL p ps
  | .ellipsis (some s) => if p (.ellipsis (some s)) then .ok [.ellipsis (some s)]
      else if p (.typevar s) then .ok [.typevar s] else .error .typeError
  | t => if p t then .ok [t] else if t.scalarParam then .error .typeError else .ok []
termination_by structural t => t
/-- over a sequence -/
def collectL (p : Ty → Bool) : (l : List Ty) → Except PyErr (List Ty)
  | [] => .ok []
  | t :: r => do
    let a ← collect p t
    let b ← collectL p r
    .ok (a ++ b)
termination_by structural l => l
/-- over the types of a record -/
def collectF (p : Ty → Bool) : (l : List (Str × Ty)) → Except PyErr (List Ty)
  | [] => .ok []
  | (_, t) :: r => do
    let a ← collect p t
    let b ← collectF p r
    .ok (a ++ b)
termination_by structural l => l
end

/-! ### cat_dshapes (util/__init__.py:59-88) -/

/-- `operator.index(x)` of a datashape: only `Fixed` has `__index__` (coretypes.py:842-843) -/
def pyIndex : Ty → Except PyErr Nat
  | .fixed n => .ok n
  | _ => .error .typeError

/-- The loop of `cat_dshapes` over the remaining datashapes: util/__init__.py:81-87. -/
def catLoop (inner : List Ty) (acc : Nat) : List (List Ty) → Except PyErr Nat
  | [] => .ok acc
  | [] :: _ => .error .indexError
  | (h :: tl) :: r => do
    let n ← pyIndex h
    if !eqL tl inner then .error .valueError else catLoop inner (acc + n) r

/-- `cat_dshapes(dslist)` for a list of `DataShape`s, each given by its parameters: util/__init__.py:59-88. -/
def catDshapes : List (List Ty) → Except PyErr Ty
  | [] => .error .valueError
  | [d] => .ok (.dshape d)
  | [] :: _ => .error .indexError
  | (h :: inner) :: r => do
    let n ← pyIndex h
    let total ← catLoop inner n r
    mkDS (.fixed total :: inner)

/-! ### subarray (coretypes.py:131-140, 592-608) -/

/-- Python's `l[k:]` -/
def pyDrop {α : Type} (l : List α) (k : Int) : List α :=
  if k < 0 then l.drop ((l.length : Int) + k).toNat else l.drop k.toNat

/-- `ds.subarray(leading)` -/
def subarray (t : Ty) (k : Int) : Except PyErr Ty :=
  match t with
  | .dshape ps =>
    if k ≥ ps.length then .error .indexError
    else if k = ps.length - 1 ∨ k = -1 then
      (match ps.getLast? with | none => .error .indexError | some m => mkDS [m])
    else mkDS (pyDrop ps k)
  | t => if k ≥ 1 then .error .indexError else .ok t

/-! ### Records (coretypes.py:949-1087) -/

/-- A Python value in a place where a field type or a part of a record literal is expected. -/
inductive PVal where
  | none
  | str (s : Str)
  | int (i : Int)
  | ty (t : Ty)
  | other
  deriving Inhabited

/-- `_launder(x)`: coretypes.py:916-938; `nest` is `datashape.dshape` on strings -/
def PVal.launder (nest : Str → Except PyErr Ty) : PVal → Except PyErr Ty
  | .int i => mkFixed i
  | .str s => match nest s with
    | .ok t => .ok (launderTy t)
    | .error e => .error e
  | .ty t => .ok (launderTy t)
  | _ => .error .typeError

/-- `types = [_launder(v) for _, v in fields]` (coretypes.py:1054), with the names -/
def launderFields (nest : Str → Except PyErr Ty) : List (Str × PVal) → Except PyErr (List (Str × Ty))
  | [] => .ok []
  | (n, v) :: r => do
    let t ← v.launder nest
    let rest ← launderFields nest r
    .ok ((n, t) :: rest)

/-- `Record(fields)`: coretypes.py:1040-1061. Simplification: names that are not strings are given as `str(name)`. -/
def record (nest : Str → Except PyErr Ty) (fields : List (Str × PVal)) : Except PyErr Ty := do
  let fs ← launderFields nest fields
  if (fs.map (·.1)).Nodup then .ok (.record fs) else .error .valueError

/-- `rec[name]`: coretypes.py:1086-1087 through the dict of 1067-1069 (the last binding of a name wins) -/
def recordGet (fs : List (Str × Ty)) (n : Str) : Except PyErr Ty :=
  match fs.reverse.lookup n with
  | some t => .ok t
  | none => .error .keyError

/-- `r.names`: coretypes.py:1071-1073 -/
def recordNames (fs : List (Str × Ty)) : List Str := fs.map (·.1)

/-- `r.types`: coretypes.py:1075-1077 -/
def recordTypes (fs : List (Str × Ty)) : List Ty := fs.map (·.2)

/-- An item of `R[…]`: a slice `start:stop:step`, or anything else. -/
inductive RItem where
  | slice (start stop step : PVal)
  | other
  deriving Inhabited

/-- `RecordMeta._unpack_slice(s, idx)`: coretypes.py:950-976 -/
def unpackSlice : RItem → Except PyErr (Str × PVal)
  | .other => .error .typeError
  | .slice .none _ _ => .error .typeError
  | .slice (.str n) .none .none => .error .typeError
  | .slice (.str n) t .none => .ok (n, t)
  | .slice (.str _) _ _ => .error .typeError
  | .slice _ _ _ => .error .typeError

/-- `R[i1, …, ik]`: coretypes.py:978-982 -/
def recordLiteral (nest : Str → Except PyErr Ty) (items : List RItem) : Except PyErr Ty := do
  let fields ← items.mapM unpackSlice
  record nest fields

end DS
