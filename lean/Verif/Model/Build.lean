import Verif.Model.Util
import Verif.Model.SymTab

/-
Building datashapes from Python objects: `DataShape(*parameters)` (coretypes.py:542-566) and `dshape(o)`, `dshapes(*args)`
(util/__init__.py:22-56).
-/
namespace DS

/-- a parameter is a string (coretypes.py:543) -/
def PVal.isStr : PVal → Bool
  | .str _ => true
  | _ => false

/-- `DataShape(*parameters)`: coretypes.py:542-561. `nest` is `datashape.dshape` on strings. Without `name=`. -/
def dataShape (nest : Str → Except PyErr Ty) (vs : List PVal) : Except PyErr Ty :=
  if vs.length = 1 ∧ vs.any PVal.isStr = true then .error .typeError
  else if vs.length > 0 then do
    let ps ← vs.mapM (PVal.launder nest)
    checkDS ps
  else .error .valueError

/-- An argument of `dshape`: a string, a datashape object, a list or tuple, anything else. -/
inductive DObj where
  | str (s : Str)
  | ty (t : Ty)
  | seq (vs : List PVal)
  | other

/-- `dshape(o)`: util/__init__.py:31-56 -/
def dshapeObj (env : Env) (disc : List Lit → Except PyErr Ty) : DObj → Except PyErr Ty
  | .str s => dshape env disc s
  | .ty t => dshapeTy t
  | .seq vs => do
    let d ← dataShape (dshape env disc) vs
    if validOk d then .ok d else .error .typeError
  | .other => .error .typeError

/-- `dshapes(*args)`: util/__init__.py:22-28 -/
def dshapes (env : Env) (disc : List Lit → Except PyErr Ty) (args : List DObj) : Except PyErr (List Ty) :=
  args.mapM (dshapeObj env disc)

end DS
