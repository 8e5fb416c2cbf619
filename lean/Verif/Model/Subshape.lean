import Verif.Model.Predicates
import Verif.Model.TrueDiv

/-
`DataShape.subshape`: coretypes.py:615-710.
-/
namespace DS

/-- An element of a list index: a field name, an int, or something else -/
inductive LIdx where
  | str (s : Str)
  | int (i : Int)
  | other
  deriving Repr, DecidableEq, Inhabited

/-- An index: what is written in `ds.subshape[…]`. Slices have `None` or int bounds. -/
inductive Index where
  | none
  | int (i : Int)
  | str (s : Str)
  | list (l : List LIdx)
  | slice (start stop step : Option Int)
  | tuple (l : List Index)
  | other
  deriving Inhabited

/-- `l[i]` for a tuple or list: negative positions count from the end -/
def pyGet {α : Type} (l : List α) (i : Int) : Except PyErr α :=
  let j := if i < 0 then (l.length : Int) + i else i
  if j < 0 then .error .indexError
  else match l[j.toNat]? with
    | some x => .ok x
    | Option.none => .error .indexError

/-- `names.index(s)` -/
def pyIndexOf (l : List Str) (s : Str) : Except PyErr Int :=
  match l.findIdx? (· == s) with
  | some i => .ok i
  | Option.none => .error .valueError

/-- The adjusted bounds of `slice(a, b, c).indices(n)` (CPython `PySlice_AdjustIndices`), for `c ≠ 0`. -/
def sliceBounds (n : Nat) (a b : Option Int) (c : Int) : Int × Int :=
  let lower : Int := if c < 0 then -1 else 0
  let upper : Int := if c < 0 then (n : Int) - 1 else n
  let adj (x : Int) : Int := if x < 0 then max (x + n) lower else min x upper
  let start := match a with | Option.none => (if c < 0 then upper else lower) | some a => adj a
  let stop := match b with | Option.none => (if c < 0 then lower else upper) | some b => adj b
  (start, stop)

/-- The number of elements of `range(start, stop, c)`, for `c ≠ 0`. -/
def rangeLen (start stop c : Int) : Nat :=
  if 0 < c then (if start < stop then ((stop - start - 1) / c + 1).toNat else 0)
  else (if stop < start then ((start - stop - 1) / (-c) + 1).toNat else 0)

/-- `l[a:b:c]` for a tuple or list; a zero step raises `ValueError`. -/
def pySlice {α : Type} (l : List α) (a b c : Option Int) : Except PyErr (List α) :=
  let s := c.getD 1
  if s = 0 then .error .valueError
  else
    let (start, stop) := sliceBounds l.length a b s
    .ok ((List.range (rangeLen start stop s)).filterMap fun k : Nat => l[(start + k * s).toNat]?)

/-- A slice count: an int or `var` -/
inductive Count where
  | int (i : Int)
  | var
  deriving DecidableEq, Repr

/-- Lines 675-693 of coretypes.py: `count` before the step is looked at; `d` is `self[0]`.
`index.start or 0` and `index.stop or n` treat `0` like a missing bound. -/
def sliceCount (d : Ty) (a b : Option Int) : Count :=
  let start0 : Int := a.getD 0
  match d with
  | .fixed n =>
    let stop0 : Int := match b with
      | Option.none => n
      | some b => if b = 0 then n else b
    let start := if start0 < 0 then (n : Int) + start0 else start0
    let stop := if stop0 < 0 then (n : Int) + stop0 else stop0
    .int (stop - start)
  | _ =>
    match b with
    | Option.none => .var
    | some stop => if 0 ≤ stop ∧ 0 ≤ start0 then .int (stop - start0) else .var

/-- Lines 695-696 of coretypes.py. -/
def stepCount (k : Count) (c : Option Int) : Except PyErr Operand :=
  match k, c with
  | .var, _ => .ok (.ty .var)
  | .int i, Option.none => .ok (.int i)
  | .int i, some c => do .ok (.int (← ceilDiv i c))

/-- Lines 666-667 of coretypes.py: a string in a list index becomes the position of the field. -/
def toPosition (fs : List (Str × Ty)) : LIdx → Except PyErr LIdx
  | .str s => do .ok (.int (← pyIndexOf (recordNames fs) s))
  | i => .ok i

/-- `rec.parameters[0][i]` in line 668 of coretypes.py -/
def fieldAt (fs : List (Str × Ty)) : LIdx → Except PyErr (Str × Ty)
  | .int i => pyGet fs i
  | _ => .error .typeError

/-- A list index of a record: coretypes.py:664-668. -/
def selectRecord (fs : List (Str × Ty)) (l : List LIdx) : Except PyErr Ty := do
  let pos ← l.mapM (toPosition fs)
  let sel ← pos.mapM (fieldAt fs)
  let r ← mkRecord sel
  mkDS [r]

/-- `ds[0]` for a `DataShape` -/
def Ty.head : Ty → Except PyErr Ty
  | .dshape (d :: _) => .ok d
  | .dshape [] => .error .indexError
  | _ => .error .attributeError

/-- `isinstance(x, Record)`, with its fields -/
def Ty.fields? : Ty → Option (List (Str × Ty))
  | .record fs => some fs
  | _ => Option.none

mutual
/-- `ds.subshape[index]`: coretypes.py:656-710, through `IndexCallable` (internal_utils.py:25-29). Anything that is not a `DataShape` has no `subshape`
(`AttributeError`). -/
def subshape : Index → Ty → Except PyErr Ty
  | .int i, ds => do
    let d ← ds.head
    if isDimension d then subarray ds 1
    else match d.fields? with
      | some fs => do .ok (← pyGet fs i).2
      | Option.none => .error .typeError
  | .str s, ds => do
    let d ← ds.head
    match d.fields? with
    | some fs => recordGet fs s
    | Option.none => .error .typeError
  | .list l, ds => do
    let d ← ds.head
    match d.fields? with
    | some fs => selectRecord fs l
    | Option.none =>
      if isDimension d then mul (.int l.length) (.ty (← subarray ds 1)) else .error .typeError
  | .slice a b c, ds => do
    let d ← ds.head
    match d.fields? with
    | some fs => do
      let sel ← pySlice fs a b c
      let r ← mkRecord sel
      mkDS [r]
    | Option.none => do
      let k ← stepCount (sliceCount d a b) c
      mul k (.ty (← subarray ds 1))
  | .tuple l, ds => do
    let _ ← ds.head
    subshapeT l ds
  | .none, ds => do
    let _ ← ds.head
    .error .typeError
  | .other, ds => do
    let _ ← ds.head
    .error .typeError
termination_by structural i => i
/-- Lines 699-708 of coretypes.py: a tuple index. -/
def subshapeT : List Index → Ty → Except PyErr Ty
  | [], ds => .ok ds
  | i :: r, ds =>
    match i with
    | .none => do mul (.int 1) (.ty (← subshapeT r ds))
    | i =>
      match r with
      | [] => subshape i ds
      | _ => do
        let rest ← subarray ds 1
        let t ← subshapeT r rest
        let d ← ds.head
        let x ← mul (.ty d) (.ty t)
        subshape i x
termination_by structural l => l
end

end DS
