import Verif.Model.Numpy

/-
datashape/typesets.py (`TypeSet`, `matches_typeset`, `supertype`, `maxtype`, the registry) and datashape/promote.py.
-/
namespace DS

/-- `getattr(ds, 'ty', ds)`: `Option` is the only class with an attribute `ty` (coretypes.py:727). -/
def Ty.unOption : Ty → Ty
  | .option t => t
  | t => t

/-! ### TypeSet (typesets.py:17-61) -/

/-- `ts.types`, also the order of iteration: typesets.py:34-36, 57-58 -/
def tsTypes : Ty → List Ty
  | .typeset o _ => o
  | _ => []

/-- `x in ts`: typesets.py:45-46, membership in the Python set of the members. The model compares with `==` only; by
C09 the hashes then agree, for values without `TypeSet`s inside. -/
def tsContains (ts x : Ty) : Bool := pyIn x (tsTypes ts)

/-- `a | b`: typesets.py:54-55, for two `TypeSet`s -/
def tsOr (a b : Ty) : Ty := .typeset (tsTypes a ++ tsTypes b) none

/-- The distinct elements of a sequence, as collected by `set(seq)` (one representative each). -/
def pyDistinct : List Ty → List Ty
  | [] => []
  | x :: r => if pyIn x (pyDistinct r) then pyDistinct r else x :: pyDistinct r

/-- `len(ts)`: typesets.py:60-61 -/
def tsLen (ts : Ty) : Nat := (pyDistinct (tsTypes ts)).length

/-- typesets.py:111 -/
def tsSigned : Ty := .typeset [tInt8, tInt16, tInt32, tInt64] (some (py"signed"))
/-- typesets.py:112 -/
def tsUnsigned : Ty := .typeset [tUint8, tUint16, tUint32, tUint64] (some (py"unsigned"))
/-- typesets.py:113-114 -/
def tsIntegral : Ty :=
  .typeset ((tsTypes tsSigned).zip (tsTypes tsUnsigned) |>.flatMap fun p => [p.1, p.2]) (some (py"integral"))
/-- typesets.py:115 -/
def tsFloating : Ty := .typeset [tFloat32, tFloat64] (some (py"floating"))
/-- typesets.py:116 -/
def tsComplexes : Ty := .typeset [tComplex64, tComplex128] (some (py"complexes"))
/-- typesets.py:117 -/
def tsBoolean : Ty := .typeset [tBool] (some (py"boolean"))
/-- typesets.py:119 -/
def tsReal : Ty := .typeset (tsTypes (tsOr tsIntegral tsFloating)) (some (py"real"))
/-- typesets.py:120 -/
def tsNumeric : Ty := .typeset (tsTypes (tsOr (tsOr tsIntegral tsFloating) tsComplexes)) (some (py"numeric"))
/-- typesets.py:121 -/
def tsScalar : Ty := .typeset (tsTypes (tsOr tsBoolean tsNumeric)) (some (py"scalar"))

/-- Iterating over a datashape: a `DataShape` yields its parameters (coretypes.py:571-572), a `TypeSet` its types, a
`Record` raises `KeyError` (coretypes.py:1086-1087 is asked for the key `0`), everything else yields itself
(coretypes.py:111-112). -/
def pyIter : Ty → Except PyErr (List Ty)
  | .dshape ps => .ok ps
  | .typeset o _ => .ok o
  | .record _ => .error .keyError
  | t => .ok [t]

/-- the loop of `matches_typeset`: typesets.py:76-82 -/
def matchLoop : List Ty → List Ty → Bool
  | a :: as, b :: bs =>
    match b with
    | .typeset o _ => if pyIn a o then matchLoop as bs else false
    | b => if pyEq a b then matchLoop as bs else false
  | _, _ => true

/-- `matches_typeset(types, signature)`: typesets.py:64-82, for a `TypeSet` as signature -/
def matchesTypeset (types sig : Ty) : Except PyErr Bool :=
  if tsContains sig types then .ok true
  else do
    let l ← pyIter types
    .ok (matchLoop l (tsTypes sig))

/-- `matches_typeset(types, signature)` for two tuples: typesets.py:64-82. A tuple is never in the signature, as it does
not equal a type (coretypes.py:89-92, typesets.py:38-40), so the loop decides. -/
def matchesSeq (types sig : List Ty) : Bool := matchLoop types sig

/-- `supertype_map`: typesets.py:124-139 -/
def supertypeMap : List (Ty × Ty) :=
  [(tInt8, tsSigned), (tInt16, tsSigned), (tInt32, tsSigned), (tInt64, tsSigned),
   (tUint8, tsUnsigned), (tUint16, tsUnsigned), (tUint32, tsUnsigned), (tUint64, tsUnsigned),
   (tFloat16, tsFloating), (tFloat32, tsFloating), (tFloat64, tsFloating),
   (tComplex64, tsComplexes), (tComplex128, tsComplexes), (tBool, tsBoolean)]

/-- `supertype(measure)`: typesets.py:142-165 -/
def supertype (t : Ty) : Except PyErr Ty := do
  let m := t.unOption
  if ← matchesTypeset m tsScalar then
    match supertypeMap.find? fun p => pyEq m p.1 with
    | some p => .ok p.2
    | none => .error .keyError
  else .error .assertion

/-- `x.itemsize`: coretypes.py:796-799 (`CType`); other classes are not asked -/
def Ty.itemsize : Ty → Nat
  | .ctype _ i _ => i
  | _ => 0

/-- `max(l, key=lambda x: x.itemsize)`: the first maximal element -/
def maxItemsize : List Ty → Option Ty
  | [] => none
  | x :: r => some (r.foldl (fun a b => if a.itemsize < b.itemsize then b else a) x)

/-- `isinstance(measure, (Decimal, TimeDelta))` -/
def Ty.isDecimalOrDelta : Ty → Bool
  | .decimal .. | .timedelta _ => true
  | _ => false

/-- `maxtype(measure)`: typesets.py:168-209 -/
def maxtype (t : Ty) : Except PyErr Ty := do
  let m0 := t.measure
  let m := m0.unOption
  if !(← matchesTypeset m tsScalar) && !m.isDecimalOrDelta then .error .typeError
  else do
    let result ← (if pyEq m tBool then .ok tBool
      else if m.isDecimalOrDelta then .ok m
      else do
        let s ← supertype m
        match maxItemsize (tsTypes s) with
        | some x => .ok x
        | none => .error .valueError)
    .ok (if m0.isOption then mkOption result else result)

/-! ### promote (promote.py) -/

/-- NumPy's promotion of two boolean or numeric dtypes (external: the table of `np.result_type`, see DESIGN.md).
`none` when one of them is `object` or `void`. -/
inductive Kind where
  | bool | sint | uint | float | complex | other
  deriving DecidableEq, Repr

/-- kind and number of bytes (of one component, for complex numbers) -/
def Prim.kind : Prim → Kind × Nat
  | .bool => (.bool, 1)
  | .int8 => (.sint, 1) | .int16 => (.sint, 2) | .int32 => (.sint, 4) | .int64 => (.sint, 8)
  | .uint8 => (.uint, 1) | .uint16 => (.uint, 2) | .uint32 => (.uint, 4) | .uint64 => (.uint, 8)
  | .float16 => (.float, 2) | .float32 => (.float, 4) | .float64 => (.float, 8)
  | .complex64 => (.complex, 4) | .complex128 => (.complex, 8)
  | .object => (.other, 8) | .void => (.other, 0)

/-- the dtype of a kind and size -/
def Prim.ofKind : Kind → Nat → Prim
  | .bool, _ => .bool
  | .sint, 1 => .int8 | .sint, 2 => .int16 | .sint, 4 => .int32 | .sint, _ => .int64
  | .uint, 1 => .uint8 | .uint, 2 => .uint16 | .uint, 4 => .uint32 | .uint, _ => .uint64
  | .float, 2 => .float16 | .float, 4 => .float32 | .float, _ => .float64
  | .complex, 4 => .complex64 | .complex, _ => .complex128
  | .other, _ => .object

/-- The size of the float component needed next to an integer of `n` bytes: twice the size, at most 8. -/
def floatFor (n : Nat) : Nat := if 2 * n ≤ 8 then 2 * n else 8

/-- `np.promote_types` on booleans and numbers -/
def promotePrim (a b : Prim) : Option Prim :=
  match a.kind, b.kind with
  | (.other, _), _ => none
  | _, (.other, _) => none
  | (.bool, _), _ => some b
  | _, (.bool, _) => some a
  | (.sint, m), (.sint, n) => some (.ofKind .sint (max m n))
  | (.uint, m), (.uint, n) => some (.ofKind .uint (max m n))
  | (.sint, m), (.uint, n) => some (if n < m then a else if n < 8 then .ofKind .sint (2 * n) else .float64)
  | (.uint, m), (.sint, n) => some (if m < n then b else if m < 8 then .ofKind .sint (2 * m) else .float64)
  | (.float, m), (.float, n) => some (.ofKind .float (max m n))
  | (.float, m), (.complex, n) | (.complex, m), (.float, n) | (.complex, m), (.complex, n) =>
    some (.ofKind .complex (max 4 (max m n)))
  | (.float, m), (_, n) | (_, n), (.float, m) => some (.ofKind .float (max m (floatFor n)))
  | (.complex, m), (_, n) | (_, n), (.complex, m) => some (.ofKind .complex (max m (floatFor n)))

/-- `np.result_type(a, b)` on dtypes: the table above, and `ext` for everything else. -/
def resultType (ext : DType → DType → Except PyErr DType) (a b : DType) : Except PyErr DType :=
  match a, b with
  | .prim p, .prim q => (match promotePrim p q with
    | some r => .ok (.prim r)
    | none => ext a b)
  | a, b => ext a b

/-- `optionify(lhs, rhs, dshape)`: promote.py:57-78 -/
def optionify (lhs rhs d : Ty) : Ty :=
  if d.measure.isOption then d
  else if lhs.isOption || rhs.isOption then mkOption d
  else d

/-- `promote(lhs, rhs, promote_option)`: promote.py:10-54 -/
def promote (ext : DType → DType → Except PyErr DType) (lhs rhs : Ty) (promoteOption : Bool) : Except PyErr Ty :=
  if pyEq lhs rhs then .ok lhs
  else do
    let left := lhs.unOption
    let right := rhs.unOption
    let d ← (if pyEq left right && pyEq right tString then .ok tString
      else do
        let a ← toNumpyDtype left
        let b ← toNumpyDtype right
        let r ← resultType ext a b
        fromDtype r)
    .ok (if promoteOption then optionify lhs rhs d else d)

/-! ### Registries (coretypes.py:36-57, typesets.py:85-105) -/

/-- A Python dict from names, in insertion order. -/
abbrev Registry (α : Type) := List (Str × α)

/-- `d[name] = v` -/
def Registry.set {α : Type} (r : Registry α) (n : Str) (v : α) : Registry α :=
  match r with
  | [] => [(n, v)]
  | (m, w) :: r => if m = n then (n, v) :: r else (m, w) :: Registry.set r n v

/-- A use of the registry: `Type.register(name, v)` (coretypes.py:47-53) and, with the same code,
`registry.register_typeset(name, v)` (typesets.py:90-95); the unconditional assignments of `Type.__new__` for a new
class (coretypes.py:39-44) and of a named `DataShape` (coretypes.py:565-566); and `lookup_type`/`__getitem__`
(coretypes.py:55-57, typesets.py:97-101). -/
inductive RegOp (α : Type) where
  | register (n : Str) (v : α)
  | define (n : Str) (v : α)
  | lookup (n : Str)

/-- What the caller sees. -/
inductive RegOut (α : Type) where
  | done
  | value (v : α)
  | raised (e : PyErr)

/-- One use of the registry. -/
def Registry.step {α : Type} (r : Registry α) : RegOp α → Registry α × RegOut α
  | .register n v => (match r.lookup n with
    | some _ => (r, .raised .typeError)
    | none => (r.set n v, .done))
  | .define n v => (r.set n v, .done)
  | .lookup n => (match r.lookup n with
    | some v => (r, .value v)
    | none => (r, .raised .keyError))

/-- The state after a sequence of uses. -/
def Registry.run {α : Type} (r : Registry α) : List (RegOp α) → Registry α
  | [] => r
  | o :: os => Registry.run (Registry.step r o).1 os

end DS
