import Verif.Model.Numpy

/-
`discover` of NumPy arrays and scalars: discovery.py:28-67 (array-like objects), 83-85, 377-414.
-/
namespace DS

/-- A NumPy array: its shape and dtype, whether each element (in the order of `x.flat`) is a Python string, and the same
for the arrays `x[name]` of a structured array. -/
structure NdArray where
  shape : List Nat
  dtype : DType
  isStr : List Bool
  fieldIsStr : Str → List Bool

/-- `is_string_array(x)`: discovery.py:387-395 -/
def isStringArray (l : List Bool) : Bool := (l.take 5).all id

/-- the dimensions as Python ints -/
def NdArray.dims (a : NdArray) : List Int := a.shape.map fun (n : Nat) => (n : Int)

/-- a field after the replacement of `object`: discovery.py:408-410 -/
def NdArray.field (a : NdArray) (f : Str × Ty) : Str × Ty :=
  (f.1, if pyEq f.2 tObject && isStringArray (a.fieldIsStr f.1) then tString else f.2)

/-- `discover(x)` for an array: discovery.py:398-414 -/
def discoverArray (a : NdArray) : Except PyErr Ty := do
  let ds ← fromNumpy a.dtype a.dims
  if pyEq ds.measure tObject && isStringArray a.isStr then mkDS (ds.shape ++ [tString])
  else
    match ds.measure with
    | .record fs =>
      if fs.any fun f => pyEq f.2 tObject then do
        let m ← mkRecord (fs.map a.field)
        mkDS (ds.shape ++ [m])
      else .ok ds
    | _ => .ok ds

/-- `discover(x)` for an array inside a list or dict. A 0-dimensional array of Python objects that are strings, or with a field
of them, is discovered as a measure in a `DataShape` of its own; inside other values it is outside the model. -/
def NdArray.item (a : NdArray) : Except PyErr Ty :=
  match discoverArray a with
  | .ok (.dshape [_]) => .error .unmodelled
  | r => r

/-- `discover(n)` for a NumPy scalar of dtype `d` (discovery.py:83-85, 377-384), and `discover(obj)` for an object of
another class that has attributes `shape` and `dtype` (discovery.py:53-66) -/
def discoverArrayLike (shape : List Nat) (d : DType) : Except PyErr Ty :=
  fromNumpy d (shape.map fun (n : Nat) => (n : Int))

end DS
